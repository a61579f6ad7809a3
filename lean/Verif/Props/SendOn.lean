import Verif.Lemmas.SendOn
import Verif.Lemmas.ValueRT
import Verif.Model.Namespaces
import Verif.Props.Text
import Verif.Props.Registry

/-! C147: what was received can be sent on. -/
namespace Opcua.SendOn

open Opcua.Namespaces (regOf)

/-! ### Specification -/

/-- A table of namespaces that a server may have: no URI twice, none empty. -/
def Spec.Table (uris : List Bytes) : Prop := uris.Nodup ∧ ∀ u ∈ uris, u ≠ []

/-- One hop: a party reads a value off its connection and writes it to the next. The result is what it wrote. -/
def Spec.hop (R : Reg) (room : Nat) (ty : Ty) (s : Bytes) : Option (Val × Bytes) :=
  match (dec R room ty).run s with
  | .ok (v, _) => (enc R v).map fun e => (v, e)
  | _ => none

/-- `n` hops one after the other: the values that were read. -/
def Spec.hops (R : Reg) (room : Nat) (ty : Ty) : Nat → Bytes → Option (List Val)
  | 0, _ => some []
  | n + 1, s => do
    let (v, e) ← Spec.hop R room ty s
    let vs ← Spec.hops R room ty n e
    return v :: vs

/-! ### C147 -/

/-- Whatever bytes a decoder accepts as a value that keeps, the value is encoded without an error, and whoever reads
that (in a longer message, with a little more room on the stack) reads the same value and stops at its end. -/
theorem C147_sent_on_partial (R : Reg) (hR : R.Paired) (f : Nat) (ty : Ty) (s rest : Bytes) (v : Val)
    (h : (dec R f ty).run s = .ok (v, rest)) (hk : v.Keeps) :
    ∃ e, enc R v = some e ∧ ∀ g, f < g → ∀ more, (dec R g ty).run (e ++ more) = .ok (v, more) := by
  obtain ⟨h1, h2, h3⟩ := post_dec R hR f ty s v rest h hk
  obtain ⟨e, he, -⟩ := rt_val R v ty (f + 1) h1 h2
  refine ⟨e, he, fun g hg more => ?_⟩
  obtain ⟨e', he', hr⟩ := rt_val R v ty g h1 (by omega)
  rw [he] at he'
  cases he'
  rw [h3] at hr
  exact hr more

/-- So it may go on for any number of hops, with any strings of bytes at the start: all read the same. -/
theorem C147_hops_partial (R : Reg) (hR : R.Paired) (f : Nat) (ty : Ty) (s rest : Bytes) (v : Val)
    (h : (dec R f ty).run s = .ok (v, rest)) (hk : v.Keeps) (n : Nat) :
    ∃ e, enc R v = some e ∧ Spec.hops R (f + 1) ty n e = some (List.replicate n v) := by
  obtain ⟨e, he, hr⟩ := C147_sent_on_partial R hR f ty s rest v h hk
  refine ⟨e, he, ?_⟩
  have h1 : Spec.hop R (f + 1) ty e = some (v, e) := by
    have := hr (f + 1) (by omega) []
    rw [List.append_nil] at this
    rw [Spec.hop, this]
    simp [he]
  induction n with
  | zero => rfl
  | succ n ih =>
    rw [Spec.hops, h1]
    simp only [Option.bind_eq_bind, Option.bind_some, ih]
    rfl

/-- For simple values nothing is asked: numbers, Booleans, strings, GUIDs and names that a reader accepts are sent on as
they are. -/
theorem C147_plain (R : Reg) (f : Nat) (t : LTy) (s rest : Bytes) (v : Val)
    (ht : t ≠ .dateTime ∧ t ≠ .nodeID ∧ t ≠ .expandedNodeID) (h : (dec R (f + 1) (.leaf t)).run s = .ok (v, rest)) :
    ∃ e, enc R v = some e ∧ ∀ more, (dec R (f + 1) (.leaf t)).run (e ++ more) = .ok (v, more) := by
  have hp : Post (dec R (f + 1) (.leaf t)) fun v => ∃ l, v = .leaf l ∧ l.hasTy t ∧ l.Fits ∧ canonLeaf l = l := by
    rw [dec]
    refine Post.map (post_leaf t) fun l hl => ⟨l, rfl, hl.1, hl.2 ?_⟩
    obtain ⟨h1, h2, h3⟩ := ht
    have hty := hl.1
    cases l <;> cases t <;> simp_all [Leaf.hasTy, Leaf.Keeps]
  obtain ⟨l, rfl, h1, h2, h3⟩ := hp s v rest h
  obtain ⟨e, he, hr⟩ := rt_val R (.leaf l) (.leaf t) (f + 1) (by rw [wt]; exact ⟨h1, h2⟩) (by rw [depth] <;> simp)
  refine ⟨e, he, fun more => ?_⟩
  have hr := hr more
  rw [canon, h3] at hr
  exact hr

/-! The registry: what `RegisterBinaryEncodingID` leaves behind, under the namespaces of a connection, is paired. -/

theorem registered_mem : ∀ (cs : List (Nat × ExpandedNodeID)) (s : Registry.St) (typ : Nat) (id : ExpandedNodeID),
    (Registry.run s cs).ids typ = some id → s.ids typ = some id ∨ (typ, id) ∈ cs
  | [], s, typ, id, h => .inl h
  | (t, i) :: cs, s, typ, id, h => by
    rw [Registry.run] at h
    rcases registered_mem cs _ typ id h with h | h
    · have key : (Registry.register s t i).1.ids = s.ids ∨
          (Registry.register s t i).1.ids = Registry.upd s.ids t (some i) := by
        unfold Registry.register
        simp only
        cases s.types i with
        | none =>
          cases s.ids t with
          | none => right; rfl
          | some n => left; simp only; split <;> rfl
        | some t' =>
          simp only
          split
          · left; rfl
          · cases s.ids t with
            | none => right; rfl
            | some n => left; simp only; split <;> rfl
      rcases key with hk | hk
      · rw [hk] at h; exact .inl h
      · rw [hk, Registry.upd] at h
        split at h
        · rename_i ht; cases h; right; simp [ht]
        · exact .inl h
    · exact .inr (List.mem_cons_of_mem _ h)

/-- After any history of registrations, with ids that are not null, and under a table of namespaces a server may have,
every structure type that can be received is sent under an id by which it is received. So the above holds with the
registry of the program. -/
theorem C147_registry_partial (cs : List (Nat × ExpandedNodeID)) (uris : List Bytes) (fields : Nat → List Ty)
    (ht : Spec.Table uris)
    (hid : ∀ c ∈ cs, ∀ m, c.2.nodeID = some m → ¬ m.IsNull ∧ m.Fits) :
    (regOf (Registry.run Registry.init cs) uris fields).Paired := by
  intro n tag h
  have h : (Registry.run Registry.init cs).types (toExpanded n uris) = some tag := h
  have hi := (Registry.C15_registry_bijection cs _ _).mp h
  have hmem : (tag, toExpanded n uris) ∈ cs := by
    rcases registered_mem cs _ _ _ hi with h | h
    · simp [Registry.init] at h
    · exact h
  refine ⟨n, ?_, ?_, h⟩
  · show ((Registry.run Registry.init cs).ids tag).map (fun id => toNodeID id uris) = some n
    rw [hi, Option.map_some, C20_translate_inverse n uris ht.1 ht.2]
  · rintro m rfl
    have := hid _ hmem
    simp only [toExpanded] at this
    split at this
    · split at this
      · obtain ⟨a, b⟩ := this _ rfl
        cases m <;> simp_all [NodeID.IsNull, NodeID.Fits, NodeID.withNs]
      · exact this m rfl
    · exact this m rfl

/-! ### A case that meets the hypotheses -/

/-- The standard namespace, the server's own, and one more. -/
def plant : List Bytes := [[117, 97], [115], [112, 108]]

/-- Struct 1 = {uint32; string}, registered with the URI `pl` and the identifier 5001. -/
def demo : Reg := regOf (Registry.run Registry.init [(1, ⟨0, [112, 108], some (.numeric 0 5001)⟩)]) plant
  fun t => if t = 1 then [.leaf .uint32, .leaf .string] else []

theorem demo_paired : demo.Paired := by
  refine C147_registry_partial _ _ _ ⟨by decide +kernel, by decide +kernel⟩ ?_
  intro c hc m hm
  simp only [List.mem_singleton] at hc
  subst hc
  cases hm
  simp [NodeID.IsNull, NodeID.Fits]

/-- A DataValue with an ExtensionObject of that type in it; the id and the strings in longer forms than needed, with a
wrong length: it is read, and sent on in its proper form. -/
def wordy : Bytes := [3, 22, 2, 2, 0, 0x89, 0x13, 0, 0, 1, 99, 0, 0, 0, 7, 0, 0, 0, 0, 0, 0, 0, 0, 0, 0, 0x80]

example : (dec demo 8 .dataValue).run (wordy ++ [1, 2]) =
    .ok (.dv (.vext 1 [.leaf (.b32 7), .leaf (.str [])]) 0x80000000 Time.zero 0 Time.zero 0, [1, 2]) := by rfl

example : (Val.dv (.vext 1 [.leaf (.b32 7), .leaf (.str [])]) 0x80000000 Time.zero 0 Time.zero 0).Keeps := by
  simp [Val.Keeps, Val.AllKeep, Leaf.Keeps, Time.Early, Time.zero]

example : enc demo (.dv (.vext 1 [.leaf (.b32 7), .leaf (.str [])]) 0x80000000 Time.zero 0 Time.zero 0) =
    some [3, 22, 1, 2, 0x89, 0x13, 1, 8, 0, 0, 0, 7, 0, 0, 0, 255, 255, 255, 255, 0, 0, 0, 0x80] := by rfl

/-- What holds of a relay: it reads a value off one connection and cannot write it to the next. -/
def Spec.Stuck (s : Bytes) : Prop := ∃ v, (dec demo 8 .variant).run s = .ok (v, []) ∧ enc demo v = none

/-- It reads one value and the next party reads another. -/
def Spec.Changed (ty : Ty) (s : Bytes) (v v' : Val) (rest : Bytes) : Prop :=
  (dec demo 8 ty).run s = .ok (v, []) ∧ ∃ e, enc demo v = some e ∧ (dec demo 8 ty).run e = .ok (v', rest)

/-- A Variant with a DataValue, with a DiagnosticInfo or with an array of these is received but cannot be sent: once it
is written to a variable, no response with the value of that variable can be sent. -/
theorem C147_datavalue_fails : Spec.Stuck [23, 0] ∧ Spec.Stuck [25, 0] ∧ Spec.Stuck [0x99, 1, 0, 0, 0, 0] :=
  ⟨⟨.vdv (.dv .vnull 0 Time.zero 0 Time.zero 0), rfl, rfl⟩, ⟨.vdiag Diag.empty, rfl, rfl⟩,
    ⟨.varray .diag (some [.diag Diag.empty]), rfl, rfl⟩⟩

/-- A DataValue that holds one is stuck with it. -/
theorem C147_datavalue_inside_fails :
    ∃ v, (dec demo 8 .dataValue).run [1, 23, 0] = .ok (v, []) ∧ enc demo v = none :=
  ⟨.dv (.vdv (.dv .vnull 0 Time.zero 0 Time.zero 0)) 0 Time.zero 0 Time.zero 0, rfl, rfl⟩

/-- An ExpandedNodeID with a server index but no node is sent without the flag: the next party reads no server index and
takes its four bytes for the start of what follows. -/
theorem C147_expanded_fails :
    Spec.Changed (.leaf .expandedNodeID) [0x40, 0, 5, 0, 0, 0] (.leaf (.expanded ⟨5, [], none⟩))
      (.leaf (.expanded ⟨0, [], none⟩)) [5, 0, 0, 0] := ⟨rfl, _, rfl, rfl⟩

/-- One with a URI and a namespace index loses the index. -/
theorem C147_index_fails :
    Spec.Changed (.leaf .expandedNodeID) [0x81, 3, 7, 0, 1, 0, 0, 0, 65]
      (.leaf (.expanded ⟨0, [65], some (.numeric 3 7)⟩)) (.leaf (.expanded ⟨0, [65], some (.numeric 0 7)⟩)) [] :=
  ⟨rfl, _, rfl, rfl⟩

/-- A Variant with the null NodeID in a longer form becomes a Variant with nothing. -/
theorem C147_null_fails :
    Spec.Changed .variant [17, 2, 0, 0, 0, 0, 0, 0] (.vscalar .nodeID (.node (some (.numeric 0 0)))) .vnull [] :=
  ⟨rfl, _, rfl, rfl⟩

/-- An array of 2 × 0 × 0 becomes one of 0 × 0 × 0. -/
theorem C147_shape_fails :
    Spec.Changed .variant ([0xC6, 0, 0, 0, 0, 3, 0, 0, 0, 2, 0, 0, 0] ++ List.replicate 8 0) (.vcube (.leaf .int32) [[], []])
      (.vcube (.leaf .int32) []) [] := ⟨rfl, _, rfl, rfl⟩

/-- A time one second after 9999-12-31T23:59:59 becomes that. -/
theorem C147_late_fails :
    Spec.Changed (.leaf .dateTime) (writeU64 (BitVec.ofNat 64 2650467744000000000)) (.leaf (.time ⟨253402300800, 0⟩))
      (.leaf (.time ⟨253402300799, 0⟩)) [] := ⟨rfl, _, rfl, rfl⟩

/-- An ExtensionObject of a type the program does not know, or in XML, is accepted, but its id and body are gone: what is
sent on is an empty one. -/
theorem C147_unknown_fails :
    (dec demo 8 .ext).run [1, 2, 9, 0, 1, 2, 0, 0, 0, 0xAA, 0xBB] = .ok (.extNil, []) ∧
    (dec demo 8 .ext).run [1, 2, 9, 0, 2, 2, 0, 0, 0, 0xAA, 0xBB] = .ok (.extNil, []) ∧
    enc demo .extNil = some [0, 0, 0] := ⟨rfl, rfl, rfl⟩

/-- Without the table being one a server may have, a type can be received that is sent under an id by which no one
receives it: here the URI of the type stands in the table twice, once as the standard namespace. -/
theorem C147_table_fails :
    let R := regOf (Registry.run Registry.init [(1, ⟨0, [112], some (.numeric 0 5)⟩)]) [[112], [112]] fun _ => []
    (dec R 8 .ext).run [1, 1, 5, 0, 1, 0, 0, 0, 0] = .ok (.ext 1 [], []) ∧
    ∃ e, enc R (.ext 1 []) = some e ∧ (dec R 8 .ext).run e = .ok (.extNil, []) := ⟨rfl, _, rfl, rfl⟩

end Opcua.SendOn
