import Verif.Model.SelfInfo

/-! # C115: the server says about itself what is so -/

namespace Opcua.SelfInfo

namespace Spec

/-- Variables of the standard Server object (OPC UA Part 5, 6.3 and 8.2). -/
inductive V where
  | auditing | serviceLevel | redundancySupport | namespaceArray | serverArray | serverStatus | state |
  currentTime | secondsTillShutdown | shutdownReason | startTime | buildInfo | productUri |
  manufacturerName | productName | softwareVersion | buildNumber | buildDate | localeIdArray |
  maxStringLength | maxArrayLength | maxByteStringLength | maxBrowseContinuationPoints |
  maxHistoryContinuationPoints | maxQueryContinuationPoints | minSupportedSampleRate | serverProfileArray |
  accessHistoryDataCapability | insertDataCapability | replaceDataCapability | updateDataCapability |
  deleteRawCapability | deleteAtTimeCapability | accessHistoryEventsCapability | maxReturnDataValues |
  maxReturnEventValues | insertAnnotationCapability | insertEventCapability | replaceEventCapability |
  updateEventCapability | maxMonitoredItemsPerCall | maxNodesPerBrowse | maxNodesPerHistoryReadData |
  maxNodesPerHistoryReadEvents | maxNodesPerHistoryUpdateData | maxNodesPerHistoryUpdateEvents |
  maxNodesPerMethodCall | maxNodesPerNodeManagement | maxNodesPerRead | maxNodesPerRegisterNodes |
  maxNodesPerTranslate | maxNodesPerWrite | enabledFlag
  deriving DecidableEq, Repr

/-- Its number (Part 6, NodeIds.csv). -/
def number : V → Nat
  | .auditing => 2994
  | .serviceLevel => 2267
  | .redundancySupport => 3709
  | .namespaceArray => 2255
  | .serverArray => 2254
  | .serverStatus => 2256
  | .state => 2259
  | .currentTime => 2258
  | .secondsTillShutdown => 2992
  | .shutdownReason => 2993
  | .startTime => 2257
  | .buildInfo => 2260
  | .productUri => 2262
  | .manufacturerName => 2263
  | .productName => 2261
  | .softwareVersion => 2264
  | .buildNumber => 2265
  | .buildDate => 2266
  | .localeIdArray => 2271
  | .maxStringLength => 11703
  | .maxArrayLength => 11702
  | .maxByteStringLength => 12911
  | .maxBrowseContinuationPoints => 2735
  | .maxHistoryContinuationPoints => 2737
  | .maxQueryContinuationPoints => 2736
  | .minSupportedSampleRate => 2272
  | .serverProfileArray => 2269
  | .accessHistoryDataCapability => 11193
  | .insertDataCapability => 11196
  | .replaceDataCapability => 11197
  | .updateDataCapability => 11198
  | .deleteRawCapability => 11199
  | .deleteAtTimeCapability => 11200
  | .accessHistoryEventsCapability => 11242
  | .maxReturnDataValues => 11273
  | .maxReturnEventValues => 11274
  | .insertAnnotationCapability => 11275
  | .insertEventCapability => 11281
  | .replaceEventCapability => 11282
  | .updateEventCapability => 11283
  | .maxMonitoredItemsPerCall => 11714
  | .maxNodesPerBrowse => 11710
  | .maxNodesPerHistoryReadData => 12165
  | .maxNodesPerHistoryReadEvents => 12166
  | .maxNodesPerHistoryUpdateData => 12167
  | .maxNodesPerHistoryUpdateEvents => 12168
  | .maxNodesPerMethodCall => 11709
  | .maxNodesPerNodeManagement => 11713
  | .maxNodesPerRead => 11705
  | .maxNodesPerRegisterNodes => 11711
  | .maxNodesPerTranslate => 11712
  | .maxNodesPerWrite => 11707
  | .enabledFlag => 2294

/-- Its data type and whether it is an array (Part 5). -/
def declared : V → Nat × Bool
  | .auditing => (1, false)
  | .serviceLevel => (3, false)
  | .redundancySupport => (851, false)
  | .namespaceArray => (12, true)
  | .serverArray => (12, true)
  | .serverStatus => (862, false)
  | .state => (852, false)
  | .currentTime => (294, false)
  | .secondsTillShutdown => (7, false)
  | .shutdownReason => (21, false)
  | .startTime => (294, false)
  | .buildInfo => (338, false)
  | .productUri => (12, false)
  | .manufacturerName => (12, false)
  | .productName => (12, false)
  | .softwareVersion => (12, false)
  | .buildNumber => (12, false)
  | .buildDate => (294, false)
  | .localeIdArray => (295, true)
  | .maxStringLength => (7, false)
  | .maxArrayLength => (7, false)
  | .maxByteStringLength => (7, false)
  | .maxBrowseContinuationPoints => (5, false)
  | .maxHistoryContinuationPoints => (5, false)
  | .maxQueryContinuationPoints => (5, false)
  | .minSupportedSampleRate => (290, false)
  | .serverProfileArray => (12, true)
  | .accessHistoryDataCapability => (1, false)
  | .insertDataCapability => (1, false)
  | .replaceDataCapability => (1, false)
  | .updateDataCapability => (1, false)
  | .deleteRawCapability => (1, false)
  | .deleteAtTimeCapability => (1, false)
  | .accessHistoryEventsCapability => (1, false)
  | .maxReturnDataValues => (7, false)
  | .maxReturnEventValues => (7, false)
  | .insertAnnotationCapability => (1, false)
  | .insertEventCapability => (1, false)
  | .replaceEventCapability => (1, false)
  | .updateEventCapability => (1, false)
  | .maxMonitoredItemsPerCall => (7, false)
  | .maxNodesPerBrowse => (7, false)
  | .maxNodesPerHistoryReadData => (7, false)
  | .maxNodesPerHistoryReadEvents => (7, false)
  | .maxNodesPerHistoryUpdateData => (7, false)
  | .maxNodesPerHistoryUpdateEvents => (7, false)
  | .maxNodesPerMethodCall => (7, false)
  | .maxNodesPerNodeManagement => (7, false)
  | .maxNodesPerRead => (7, false)
  | .maxNodesPerRegisterNodes => (7, false)
  | .maxNodesPerTranslate => (7, false)
  | .maxNodesPerWrite => (7, false)
  | .enabledFlag => (1, false)

/-- The value is one of the data type: Boolean 1, Byte 3, UInt16 5, Int32 6, UInt32 7, String 12, LocalizedText 21;
UtcTime 294 and Duration 290 and LocaleId 295 are a DateTime, a Double and a String; enumerations (851, 852) are
Int32; 338 and 862 are structures. -/
def conforms : Nat × Bool → Val → Prop
  | (1, false), .bool _ => True
  | (3, false), .byte _ => True
  | (5, false), .uint16 _ => True
  | (7, false), .uint32 _ => True
  | (12, false), .string _ => True
  | (12, true), .strings _ => True
  | (295, true), .strings _ => True
  | (21, false), .text _ => True
  | (290, false), .double _ => True
  | (294, false), .time _ => True
  | (851, false), .int32 _ => True
  | (852, false), .int32 _ => True
  | (338, false), .build _ => True
  | (862, false), .status _ => True
  | _, _ => False

/-- What each variable means (Part 5, 6.3.1, 6.3.2, 6.3.11, 12.9, 12.10), for those whose value is the
configuration or the state of the server. -/
def meaning (c : Config) (p : Caps) (m : Limits) (live : Live) : V → Option Val
  | .namespaceArray => some (.strings live.namespaces)
  | .serverArray => some (.strings live.servers)
  | .serverStatus => some (.status ⟨c.startTime, live.now, live.state, c.build, live.seconds, live.reason⟩)
  | .state => some (.int32 live.state)
  | .currentTime => some (.time live.now)
  | .secondsTillShutdown => some (.uint32 live.seconds)
  | .shutdownReason => some (.text live.reason)
  | .startTime => some (.time c.startTime)
  | .buildInfo => some (.build c.build)
  | .productUri => some (.string c.build.productUri)
  | .manufacturerName => some (.string c.build.manufacturerName)
  | .productName => some (.string c.build.productName)
  | .softwareVersion => some (.string c.build.softwareVersion)
  | .buildNumber => some (.string c.build.buildNumber)
  | .buildDate => some (.time c.build.buildDate)
  | .localeIdArray => some (.strings p.locales)
  | .maxStringLength => some (.uint32 p.maxString)
  | .maxArrayLength => some (.uint32 p.maxArray)
  | .maxByteStringLength => some (.uint32 p.maxByteString)
  | .maxBrowseContinuationPoints => some (.uint16 p.browsePoints)
  | .maxHistoryContinuationPoints => some (.uint16 p.historyPoints)
  | .maxQueryContinuationPoints => some (.uint16 p.queryPoints)
  | .minSupportedSampleRate => some (.double p.sampleRate)
  | .serverProfileArray => some (.strings p.profiles)
  | .maxMonitoredItemsPerCall => some (.uint32 m.monitoredItems)
  | .maxNodesPerBrowse => some (.uint32 m.browse)
  | .maxNodesPerHistoryReadData => some (.uint32 m.historyReadData)
  | .maxNodesPerHistoryReadEvents => some (.uint32 m.historyReadEvents)
  | .maxNodesPerHistoryUpdateData => some (.uint32 m.historyUpdateData)
  | .maxNodesPerHistoryUpdateEvents => some (.uint32 m.historyUpdateEvents)
  | .maxNodesPerMethodCall => some (.uint32 m.methodCall)
  | .maxNodesPerNodeManagement => some (.uint32 m.nodeManagement)
  | .maxNodesPerRead => some (.uint32 m.read)
  | .maxNodesPerRegisterNodes => some (.uint32 m.registerNodes)
  | .maxNodesPerTranslate => some (.uint32 m.translate)
  | .maxNodesPerWrite => some (.uint32 m.write)
  | .enabledFlag => some (.bool c.diagnostics)
  | _ => none

/-- The variable that limits a service (Part 5, 6.3.11). -/
def limitVariable : Service → V
  | .browse | .browseNext => .maxNodesPerBrowse
  | .translate => .maxNodesPerTranslate
  | .registerNodes | .unregisterNodes => .maxNodesPerRegisterNodes
  | .read => .maxNodesPerRead
  | .write => .maxNodesPerWrite
  | .historyReadData => .maxNodesPerHistoryReadData
  | .historyReadEvents => .maxNodesPerHistoryReadEvents
  | .call => .maxNodesPerMethodCall
  | .createItems | .modifyItems | .setMonitoringMode | .deleteItems | .setTriggering => .maxMonitoredItemsPerCall

/-- The node set has the variables. -/
def Standard (s : Space) : Prop := ∀ v : V, (s (number v)).isSome

end Spec
open Spec

/-! ## What the initialisation leaves at a node -/

/-- The act for a node. -/
def actAt (l : List (Nat × Act)) (id : Nat) : Option Act := (l.find? fun a => Nat.beq a.1 id).map (·.2)

theorem apply_other (c : Config) (p : Caps) (m : Limits) (s : Space) (a : Nat × Act) (id : Nat) (h : a.1 ≠ id) :
    apply c p m s a id = s id := by
  obtain ⟨k, act⟩ := a
  have : ¬ id = k := fun e => h e.symm
  cases act <;> simp [apply, Space.put, Space.delete, this]

theorem foldl_other (c : Config) (p : Caps) (m : Limits) (l : List (Nat × Act)) (s : Space) (id : Nat)
    (h : ∀ a ∈ l, a.1 ≠ id) : l.foldl (apply c p m) s id = s id := by
  induction l generalizing s with
  | nil => rfl
  | cons a l ih =>
    simp only [List.foldl_cons]
    rw [ih _ fun b hb => h b (List.mem_cons_of_mem _ hb), apply_other c p m s a id (h a (by simp))]

theorem foldl_at (c : Config) (p : Caps) (m : Limits) (l : List (Nat × Act)) (s : Space) (id : Nat) (act : Act)
    (nd : (l.map (·.1)).Nodup) (h : actAt l id = some act) :
    l.foldl (apply c p m) s id = apply c p m s (id, act) id := by
  induction l generalizing s with
  | nil => simp [actAt] at h
  | cons a l ih =>
    obtain ⟨k, b⟩ := a
    simp only [List.map_cons, List.nodup_cons] at nd
    by_cases e : k = id
    · subst e
      have hb : b = act := by simpa [actAt] using h
      subst hb
      simp only [List.foldl_cons]
      rw [foldl_other]
      intro x hx ex
      exact nd.1 (List.mem_map.mpr ⟨x, hx, ex⟩)
    · have hb : Nat.beq k id = false := by
        cases hk : Nat.beq k id
        · rfl
        · exact absurd (Nat.eq_of_beq_eq_true hk) e
      have h' : actAt l id = some act := by
        simpa [actAt, List.find?_cons, hb] using h
      simp only [List.foldl_cons]
      rw [ih _ nd.2 h']
      have hs : apply c p m s (k, b) id = s id := apply_other c p m s (k, b) id e
      generalize apply c p m s (k, b) = t at hs
      cases act <;> simp [apply, Space.put, Space.delete, hs]

theorem acts_nodup : (acts.map (·.1)).Nodup := by decide +kernel

/-- What a client reads after an act. -/
def valueOf (c : Config) (p : Caps) (m : Limits) (live : Live) : Act → Option Val
  | .set f => some (f c p m)
  | .handler f => some (f c live)
  | .delete => none

theorem acts_all (v : V) : (actAt acts (number v)).isSome := by cases v <;> rfl

/-- What is read after the initialisation: what the act says. -/
theorem read_eq (c : Config) (p : Caps) (m : Limits) (s : Space) (hs : Standard s) (live : Live) (v : V) :
    read (acts.foldl (apply c p m) s) live (number v) = (actAt acts (number v)).bind (valueOf c p m live) := by
  have hv := hs v
  have ha := acts_all v
  cases h : actAt acts (number v) with
  | none => simp [h] at ha
  | some act =>
    unfold read
    rw [foldl_at c p m acts s _ _ acts_nodup h]
    cases e : s (number v) with
    | none => simp [e] at hv
    | some x => cases act <;> simp [apply, Space.put, Space.delete, e, Source.read, valueOf]

theorem init_some {c : Config} {p : Caps} {m : Limits} (hc : c.caps = some p) (hm : p.limits = some m) (s : Space) :
    initNamespace c s = some (acts.foldl (apply c p m) s) := by
  simp [initNamespace, hc, hm]

/-- Given capabilities with limits, the server starts, and every variable that tells the configuration or the
state of the server is read as just that, at every moment. -/
theorem C115_published (c : Config) (p : Caps) (m : Limits) (hc : c.caps = some p) (hm : p.limits = some m)
    (s : Space) (hs : Standard s) :
    ∃ s', initNamespace c s = some s' ∧
      ∀ (live : Live) (v : V) (x : Val), meaning c p m live v = some x → read s' live (number v) = some x := by
  refine ⟨_, init_some hc hm s, ?_⟩
  intro live v x h
  cases v <;> simp only [meaning, Option.some.injEq, reduceCtorEq] at h <;> subst h <;>
    (rw [read_eq c p m s hs]; rfl)

/-- Every variable the server fills has a value of the data type it declares, at every moment. Missing: the two
variables of `C115_types_fails`. -/
theorem C115_types_partial (c : Config) (p : Caps) (m : Limits) (hc : c.caps = some p) (hm : p.limits = some m)
    (s s' : Space) (hs : Standard s) (hi : initNamespace c s = some s') (live : Live) (v : V)
    (h1 : v ≠ .maxReturnDataValues) (h2 : v ≠ .maxReturnEventValues) :
    ∃ x, read s' live (number v) = some x ∧ conforms (declared v) x := by
  rw [init_some hc hm, Option.some.injEq] at hi
  subst hi
  cases v <;> first
    | exact absurd rfl h1
    | exact absurd rfl h2
    | (rw [read_eq c p m s hs]; exact ⟨_, rfl, trivial⟩)

/-- MaxReturnDataValues and MaxReturnEventValues are UInt32 and are given the Boolean `false`, on every server. -/
theorem C115_types_fails (c : Config) (p : Caps) (m : Limits) (hc : c.caps = some p) (hm : p.limits = some m)
    (s s' : Space) (hs : Standard s) (hi : initNamespace c s = some s') (live : Live) (v : V)
    (h : v = .maxReturnDataValues ∨ v = .maxReturnEventValues) :
    ∃ x, read s' live (number v) = some x ∧ ¬ conforms (declared v) x := by
  rw [init_some hc hm, Option.some.injEq] at hi
  subst hi
  rcases h with rfl | rfl
  · rw [read_eq c p m s hs]
    exact ⟨.bool false, rfl, id⟩
  · rw [read_eq c p m s hs]
    exact ⟨.bool false, rfl, id⟩

/-! ## The limits -/

/-- A client that reads the limit of a service knows which requests are refused for their number of operations:
exactly those with more. Missing: SetTriggering and the history of events. -/
theorem C115_limits_partial (c : Config) (p : Caps) (m : Limits) (hc : c.caps = some p) (hm : p.limits = some m)
    (s s' : Space) (hs : Standard s) (hi : initNamespace c s = some s') (live : Live) (w : Service)
    (h1 : w ≠ .setTriggering) (h2 : w ≠ .historyReadEvents) :
    ∃ k, read s' live (number (limitVariable w)) = some (.uint32 k) ∧
      ∀ n, refuse m w n = if n = 0 then some .badNothingToDo else if n ≤ k then none
        else some .badTooManyOperations := by
  obtain ⟨t, ht, hp⟩ := C115_published c p m hc hm s hs
  have : t = s' := by rw [ht, Option.some.injEq] at hi; exact hi
  subst this
  have key : ∀ k, limitOf m w = some k → meaning c p m live (limitVariable w) = some (.uint32 k) →
      ∃ k, read t live (number (limitVariable w)) = some (.uint32 k) ∧
      ∀ n, refuse m w n = if n = 0 then some .badNothingToDo else if n ≤ k then none
        else some .badTooManyOperations := by
    intro k hk hv
    refine ⟨k, hp live _ _ hv, fun n => ?_⟩
    simp only [refuse, hk]
    split
    · rfl
    · by_cases hn : n ≤ k
      · have : ¬ n > k := by omega
        simp [hn]
      · have : n > k := by omega
        simp [hn, this]
  cases w <;> first
    | exact absurd rfl h1
    | exact absurd rfl h2
    | exact key _ rfl rfl

/-- SetTriggering is never refused for its number of links, whatever limit is published. -/
theorem C115_triggering_fails (c : Config) (p : Caps) (m : Limits) (hc : c.caps = some p) (hm : p.limits = some m)
    (s s' : Space) (hs : Standard s) (hi : initNamespace c s = some s') (live : Live) :
    ∃ k n, read s' live (number (limitVariable .setTriggering)) = some (.uint32 k) ∧ n > k ∧
      refuse m .setTriggering n = none := by
  obtain ⟨t, ht, hp⟩ := C115_published c p m hc hm s hs
  have : t = s' := by rw [ht, Option.some.injEq] at hi; exact hi
  subst this
  exact ⟨m.monitoredItems, m.monitoredItems + 1, hp live .maxMonitoredItemsPerCall _ rfl, by omega, by
    simp [refuse, limitOf]⟩

/-- The history of events is limited by what is published for the history of data: with different limits a
request within the published limit is refused, and one above it is taken. -/
theorem C115_event_history_fails (c : Config) (p : Caps) (m : Limits) (hc : c.caps = some p)
    (hm : p.limits = some m) (s s' : Space) (hs : Standard s) (hi : initNamespace c s = some s') (live : Live)
    (hd : m.historyReadData ≠ m.historyReadEvents) :
    ∃ k n, n ≠ 0 ∧ read s' live (number (limitVariable .historyReadEvents)) = some (.uint32 k) ∧
      ((n ≤ k ∧ refuse m .historyReadEvents n = some .badTooManyOperations) ∨
       (n > k ∧ refuse m .historyReadEvents n = none)) := by
  obtain ⟨t, ht, hp⟩ := C115_published c p m hc hm s hs
  have : t = s' := by rw [ht, Option.some.injEq] at hi; exact hi
  subst this
  have hr := hp live .maxNodesPerHistoryReadEvents _ rfl
  by_cases h : m.historyReadData < m.historyReadEvents
  · refine ⟨m.historyReadEvents, m.historyReadEvents, by omega, hr, Or.inl ⟨Nat.le_refl _, ?_⟩⟩
    simp [refuse, limitOf, h]
    omega
  · refine ⟨m.historyReadEvents, m.historyReadData, by omega, hr, Or.inr ⟨by omega, ?_⟩⟩
    simp [refuse, limitOf]
    omega

/-- A limit of zero, which the standard does not allow to be published (Part 5, 6.3.11), is published, and the
service then refuses everything. -/
theorem C115_zero_limit_fails (c : Config) (p : Caps) (m : Limits) (hc : c.caps = some p) (hm : p.limits = some m)
    (s s' : Space) (hs : Standard s) (hi : initNamespace c s = some s') (live : Live) (hz : m.read = 0) :
    read s' live (number .maxNodesPerRead) = some (.uint32 0) ∧ ∀ n, (refuse m .read n).isSome := by
  obtain ⟨t, ht, hp⟩ := C115_published c p m hc hm s hs
  have : t = s' := by rw [ht, Option.some.injEq] at hi; exact hi
  subst this
  refine ⟨by simpa [meaning, hz] using hp live .maxNodesPerRead _ rfl, fun n => ?_⟩
  by_cases hn : n = 0
  · simp [refuse, hn]
  · have : n > 0 := by omega
    simp [refuse, limitOf, hz, this, hn]

/-! ## History, crashes and what is never filled -/

/-- A server with a historian, which answers HistoryRead, says that neither the history of data nor that of events
can be read. -/
theorem C115_history_fails (c : Config) (p : Caps) (m : Limits) (hc : c.caps = some p) (hm : p.limits = some m)
    (s s' : Space) (hs : Standard s) (hi : initNamespace c s = some s') (live : Live) (hh : c.historian = true) :
    read s' live (number .accessHistoryDataCapability) ≠ some (.bool c.historian) ∧
      read s' live (number .accessHistoryEventsCapability) ≠ some (.bool c.historian) := by
  rw [init_some hc hm, Option.some.injEq] at hi
  subst hi
  rw [read_eq c p m s hs, read_eq c p m s hs, hh]
  show some (Val.bool false) ≠ some (.bool true) ∧ some (Val.bool false) ≠ some (.bool true)
  decide

/-- Without a historian both are right; and no server can update or delete history, which it says. -/
theorem C115_history_partial (c : Config) (p : Caps) (m : Limits) (hc : c.caps = some p) (hm : p.limits = some m)
    (s s' : Space) (hs : Standard s) (hi : initNamespace c s = some s') (live : Live) (hh : c.historian = false)
    (v : V) (hv : v ∈ [V.accessHistoryDataCapability, .accessHistoryEventsCapability, .insertDataCapability,
      .replaceDataCapability, .updateDataCapability, .deleteRawCapability, .deleteAtTimeCapability,
      .insertAnnotationCapability, .insertEventCapability, .replaceEventCapability, .updateEventCapability]) :
    read s' live (number v) = some (.bool c.historian) := by
  rw [init_some hc hm, Option.some.injEq] at hi
  subst hi
  rw [hh]
  cases v <;> first
    | (exfalso; revert hv; decide)
    | (rw [read_eq c p m s hs]; rfl)

/-- Capabilities written without operation limits crash the server while it starts, and so do none. -/
theorem C115_crash_fails (c : Config) (p : Caps) (s : Space) (hs : Standard s)
    (h : c.caps = none ∨ (c.caps = some p ∧ p.limits = none)) : initNamespace c s = none := by
  rcases h with h | ⟨h, hl⟩
  · simp [initNamespace, h]
  · have ha : (actsLimits.any fun a => (s a.1).isSome) = true := by
      have := hs .maxMonitoredItemsPerCall
      simp only [number] at this
      simp [actsLimits, this]
    simp only [initNamespace, h, hl]
    exact if_pos ha

/-- The arrays of the session diagnostics (3707, 3708), mandatory in Part 5, are never filled: what is read is
what the node set gave, whichever sessions there are. -/
theorem C115_session_arrays_fails (c : Config) (p : Caps) (m : Limits) (hc : c.caps = some p)
    (hm : p.limits = some m) (s s' : Space) (hi : initNamespace c s = some s') (live : Live) (id : Nat)
    (hid : id = 3707 ∨ id = 3708) : read s' live id = read s live id := by
  rw [init_some hc hm, Option.some.injEq] at hi
  subst hi
  have : ∀ a ∈ acts, a.1 ≠ id := by
    rcases hid with rfl | rfl
    · decide +kernel
    · decide +kernel
  simp [read, foldl_other c p m acts s id this]

/-! ## A server -/

/-- The node set: every node is there, without a value. -/
def bare : Space := fun _ => some (.file none)

example : Standard bare := fun _ => rfl

/-- A server with other limits for the history of events, that has been up for a while. -/
def own : Config :=
  { caps := some { limits := some { historyReadEvents := 10, read := 50 }, maxString := 100 },
    build := { productName := "pump" }, startTime := 7, historian := true }

def running : Live := { state := 0, now := 99, namespaces := ["http://opcfoundation.org/UA/", "urn:pump"] }

example : (initNamespace own bare).bind (fun s => read s running 11705) = some (.uint32 50) := by decide +kernel
example : (initNamespace own bare).bind (fun s => read s running 2259) = some (.int32 0) := by decide +kernel
example : (initNamespace own bare).bind (fun s => read s running 2261) = some (.string "pump") := by decide +kernel
example : (initNamespace own bare).bind (fun s => read s running 11273) = some (.bool false) := by decide +kernel
example : (initNamespace own bare).bind (fun s => read s running 3707) = none := by decide +kernel
example : refuse { historyReadEvents := 10, read := 50 } .historyReadEvents 900 = none := by decide
example : refuse { historyReadEvents := 10, read := 50 } .read 51 = some .badTooManyOperations := by decide
example : (initNamespace { caps := some { limits := none } } bare).isNone = true := by decide +kernel

end Opcua.SelfInfo
