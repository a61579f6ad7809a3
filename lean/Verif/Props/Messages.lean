import Verif.Model.Messages
import Verif.Props.Structs

/-! C111: the messages of the services reach the other side as what they are. -/

namespace Opcua.Messages

set_option maxRecDepth 100000

open Structs (structs reg)
open Structs.Spec (norm bytes)

namespace Spec

/-- The service a message belongs to: its name without the ending. -/
def Belongs (service ending : String) (t : Nat) : Prop :=
  ∃ s, structs[t]? = some s ∧ norm s.name = norm service ++ norm ending

end Spec

open Spec

/-- What is written by one table and read by the other. -/
def passes (writes reads : List (Nat × Nat)) (t : Nat) : Bool :=
  match idFor writes t with
  | none => false
  | some id => Nat.ble 1 id && Nat.ble id 65535 && (typeFor reads id == some t) && (Structs.idOf t == some id) &&
      Ty.allSupported (reg.fieldsOf t)

theorem requests_pass : (clientWrites.all fun r => passes clientWrites serverReads r.1) = true := by decide +kernel
theorem responses_pass : (serverWrites.all fun r => passes serverWrites clientReads r.1) = true := by decide +kernel

theorem passes_spec {writes reads : List (Nat × Nat)} {t : Nat} (h : passes writes reads t = true) :
    ∃ id, idFor writes t = some id ∧ typeFor reads id = some t ∧ 1 ≤ id ∧ id ≤ 65535 ∧
      reg.idOf t = some (some (.numeric 0 (BitVec.ofNat 32 id))) ∧ Ty.allSupported (reg.fieldsOf t) = true := by
  unfold passes at h
  cases hid : idFor writes t with
  | none => rw [hid] at h; simp at h
  | some id =>
    rw [hid] at h
    simp only [Bool.and_eq_true, Nat.ble_eq, beq_iff_eq] at h
    obtain ⟨⟨⟨⟨h1, h2⟩, h3⟩, h4⟩, h5⟩ := h
    refine ⟨id, rfl, h3, h1, h2, ?_, h5⟩
    simp only [reg, h4, Option.map_some]

/-- A message is written behind the id of its type, and read back as a message of that type with the same
fields. -/
theorem passes_roundtrip {writes reads : List (Nat × Nat)} {t : Nat} (h : passes writes reads t = true) (fs : List Val)
    (f : Nat) (hw : wtFields reg (reg.fieldsOf t) fs) (hx : (Val.struct fs).Exact) (hd : depth (.struct fs) ≤ f) :
    ∃ e, write writes t fs = some e ∧ ∀ rest, (read reads f).run (e ++ rest) = .ok ((t, .struct fs), rest) := by
  obtain ⟨id, h1, h2, h3, h4, -, h5⟩ := passes_spec h
  obtain ⟨e, he, hr⟩ := C12_struct_roundtrip reg (reg.fieldsOf t) fs f (by simpa [Ty.supported] using h5) hw hd hx
  refine ⟨writeNodeID (some (.numeric 0 (BitVec.ofNat 32 id))) ++ e, by simp [write, h1, he], ?_⟩
  intro rest
  have hnull : ¬ NodeID.IsNull (.numeric 0 (BitVec.ofNat 32 id)) := by
    simp only [NodeID.IsNull, NodeID.numeric.injEq, true_and, reduceCtorEq, or_false]
    intro he
    have := congrArg BitVec.toNat he
    simp only [BitVec.toNat_ofNat] at this
    rw [Nat.mod_eq_of_lt (by omega)] at this
    simp at this
    omega
  have hn := C05_nodeid_roundtrip (.numeric 0 (BitVec.ofNat 32 id)) hnull (by simp [NodeID.Fits]) (e ++ rest)
  have hid : (BitVec.ofNat 32 id).toNat = id := by rw [BitVec.toNat_ofNat, Nat.mod_eq_of_lt (by omega)]
  rw [List.append_assoc, read, Dec.bind_apply, hn]
  have hb : (number (some (.numeric 0 (BitVec.ofNat 32 id)))).bind (typeFor reads) = some t := by
    simp only [number, if_true, Option.bind_some, hid, h2]
  simp only [hb]
  rw [Dec.bind_apply, hr rest]
  rfl

/-! ## C111 -/

theorem methods_pass : (methods.all fun m =>
    passes clientWrites serverReads m.request && (replies m.request).all (fun r =>
      (Nat.beq r m.response || Nat.beq r fault) && passes serverWrites clientReads r)) = true := by decide +kernel

theorem methods_names : (methods.all fun m =>
    match structs[m.request]?, structs[m.response]? with
    | some q, some r => Structs.Spec.same (norm q.name) (norm m.name ++ norm "Request") &&
        Structs.Spec.same (norm r.name) (norm m.name ++ norm "Response")
    | _, _ => false) = true := by decide +kernel

/-- Each service of the client sends the request of its name, and awaits the response of its name. -/
theorem C111_services (m : Method) (h : m ∈ methods) :
    Belongs m.name "Request" m.request ∧ Belongs m.name "Response" m.response := by
  have := List.all_eq_true.1 methods_names m h
  cases hq : structs[m.request]? with
  | none => rw [hq] at this; simp at this
  | some q =>
    cases hr : structs[m.response]? with
    | none => rw [hq, hr] at this; simp at this
    | some r =>
      rw [hq, hr] at this
      simp only [Bool.and_eq_true, Structs.same_iff] at this
      exact ⟨⟨q, hq, this.1⟩, ⟨r, hr, this.2⟩⟩

/-- Each request of the client reaches the server as the request it is, whatever is in it. -/
theorem C111_request (m : Method) (h : m ∈ methods) (fs : List Val) (f : Nat)
    (hw : wtFields reg (reg.fieldsOf m.request) fs) (hx : (Val.struct fs).Exact) (hd : depth (.struct fs) ≤ f) :
    ∃ e, write clientWrites m.request fs = some e ∧
      ∀ rest, (read serverReads f).run (e ++ rest) = .ok ((m.request, .struct fs), rest) := by
  have := List.all_eq_true.1 methods_pass m h
  simp only [Bool.and_eq_true] at this
  exact passes_roundtrip this.1 fs f hw hx hd

/-- Whatever the handlers of the server answer to a request is the response that the service of the client
awaits, or a ServiceFault, and reaches the client as such. -/
theorem C111_response (m : Method) (h : m ∈ methods) (r : Nat) (hr : r ∈ replies m.request) (fs : List Val) (f : Nat)
    (hw : wtFields reg (reg.fieldsOf r) fs) (hx : (Val.struct fs).Exact) (hd : depth (.struct fs) ≤ f) :
    (r = m.response ∨ r = fault) ∧
      ∃ e, write serverWrites r fs = some e ∧
        ∀ rest, (read clientReads f).run (e ++ rest) = .ok ((r, .struct fs), rest) := by
  have := List.all_eq_true.1 methods_pass m h
  simp only [Bool.and_eq_true, List.all_eq_true, Bool.or_eq_true, Nat.beq_eq] at this
  obtain ⟨h1, h2⟩ := this.2 r hr
  exact ⟨h1, passes_roundtrip h2 fs f hw hx hd⟩

example : structs[fault]?.map (·.name) = some "ServiceFault" := by decide +kernel

/-- The services that the server does not have, of those that the client has. -/
abbrev unsupported : List String :=
  ["AddNodes", "AddReferences", "DeleteNodes", "DeleteReferences", "HistoryUpdate", "TransferSubscriptions"]

/-- The server answers each of the others with its response; these it answers with a fault alone. -/
theorem C111_supported (m : Method) (h : m ∈ methods) :
    (m.name ∉ unsupported → m.response ∈ replies m.request) ∧ (m.name ∈ unsupported → replies m.request = [fault]) := by
  have : (methods.all fun m => (unsupported.contains m.name || (replies m.request).contains m.response) &&
      (!unsupported.contains m.name || replies m.request == [fault])) = true := by decide +kernel
  have := List.all_eq_true.1 this m h
  simp only [Bool.and_eq_true, Bool.or_eq_true, List.contains_iff_mem, Bool.not_eq_true', beq_iff_eq] at this
  constructor
  · intro hn
    exact this.1.resolve_left hn
  · intro hy
    rcases this.2 with h | h
    · have : unsupported.contains m.name = true := by simpa [List.contains_iff_mem] using hy
      rw [h] at this; cases this
    · exact h

/-- Every type that one side can write at all is written behind the id that the registry gives it, and read by the
other as that type. -/
theorem C111_ids (t : Nat) :
    (∀ id, idFor clientWrites t = some id →
      typeFor serverReads id = some t ∧ reg.idOf t = some (some (.numeric 0 (BitVec.ofNat 32 id)))) ∧
    (∀ id, idFor serverWrites t = some id →
      typeFor clientReads id = some t ∧ reg.idOf t = some (some (.numeric 0 (BitVec.ofNat 32 id)))) := by
  have key : ∀ (writes reads : List (Nat × Nat)), (writes.all fun r => passes writes reads r.1) = true →
      ∀ id, idFor writes t = some id →
        typeFor reads id = some t ∧ reg.idOf t = some (some (.numeric 0 (BitVec.ofNat 32 id))) := by
    intro writes reads hall id hid
    have hm : ∃ r ∈ writes, r.1 = t := by
      simp only [idFor, Option.map_eq_some_iff] at hid
      obtain ⟨r, hr, -⟩ := hid
      have h1 := List.find?_some (p := fun r : Nat × Nat => r.1 == t) hr
      exact ⟨r, List.mem_of_find?_eq_some hr, by simpa using h1⟩
    obtain ⟨r, hr, rfl⟩ := hm
    obtain ⟨id', h1, h2, -, -, h3, -⟩ := passes_spec (List.all_eq_true.1 hall r hr)
    rw [hid] at h1
    cases h1
    exact ⟨h2, h3⟩
  exact ⟨key _ _ requests_pass, key _ _ responses_pass⟩

example : idFor clientWrites 181 = some 631 ∧ structs[181]?.map (·.name) = some "ReadRequest" := by decide +kernel

/-- A message behind any other id is refused, whatever follows. -/
theorem C111_unknown (table : List (Nat × Nat)) (f : Nat) (id : NodeID) (hf : id.Fits) (hn : ¬ id.IsNull)
    (h : ∀ n, id = .numeric 0 n → ∀ r ∈ table, r.2 ≠ n.toNat) (rest : Bytes) :
    (read table f).run (writeNodeID (some id) ++ rest) = .err rest := by
  rw [read, Dec.bind_apply, C05_nodeid_roundtrip id hn hf rest]
  have hb : (number (some id)).bind (typeFor table) = none := by
    cases id with
    | numeric ns n =>
      by_cases hns : ns = 0
      · subst hns
        simp only [number, if_true, Option.bind_some, typeFor, Option.map_eq_none_iff, List.find?_eq_none]
        intro r hr
        simpa using h n rfl r hr
      · rw [number, if_neg hns]; rfl
    | _ => rfl
  simp only [hb]
  rfl

example : ∀ r ∈ serverReads, r.2 ≠ (864 : BitVec 32).toNat := by decide +kernel

end Opcua.Messages
