import Verif.Props.Text

/-! C20, the other direction: from the name with a URI to the name with an index and back. -/
namespace Opcua

/-- Different NodeIDs have different names with a URI. -/
theorem C20_distinct (n m : Option NodeID) (uris : List Bytes) (hd : uris.Nodup) (hne : ∀ u ∈ uris, u ≠ [])
    (h : toExpanded n uris = toExpanded m uris) : n = m := by
  rw [← C20_translate_inverse n uris hd hne, h, C20_translate_inverse m uris hd hne]

/-- To a NodeID and back: a name with a URI of the table, other than that of the standard namespace (the first), comes
back. -/
theorem C20_forth_partial (uris : List Bytes) (hd : uris.Nodup) (hlen : uris.length ≤ 65535) (u : Bytes) (hne : u ≠ [])
    (n : NodeID) (h0 : n.ns = 0) (hu : u ∈ uris) (hf : uris.head? ≠ some u) :
    toExpanded (toNodeID ⟨0, u, some n⟩ uris) uris = ⟨0, u, some n⟩ := by
  cases hx : uriIndex u uris 0 with
  | none => exact absurd hu (uriIndex_none.mp hx)
  | some j =>
    obtain ⟨-, h2, -⟩ := uriIndex_some hx
    simp only [Nat.sub_zero] at h2
    obtain ⟨hjl, he⟩ := List.getElem?_eq_some_iff.mp h2
    have hj0 : j ≠ 0 := by
      rintro rfl
      exact hf (by rw [List.head?_eq_getElem?]; exact h2)
    have h1 : toNodeID ⟨0, u, some n⟩ uris = some (n.withNs (BitVec.ofNat 16 j)) := by
      rw [toNodeID]
      simp only [hne, if_false, hx, Option.map_some]
    have hk : (n.withNs (BitVec.ofNat 16 j)).ns.toNat = j := by
      have : (n.withNs (BitVec.ofNat 16 j)).ns = BitVec.ofNat 16 j := by cases n <;> rfl
      rw [this, BitVec.toNat_ofNat, Nat.mod_eq_of_lt (by omega)]
    rw [h1, toExpanded]
    simp only [hk, h2]
    rw [if_pos ⟨by omega, by rw [Nat.mod_eq_of_lt (by omega)]; exact hjl⟩, NodeID.withNs_withNs, ← h0, NodeID.withNs_ns]

example : let uris := [[117, 97], [115], [112, 108]]
    uris.Nodup ∧ uris.head? ≠ some [115] ∧ [115] ∈ uris ∧
    toExpanded (toNodeID ⟨0, [115], some (.string 0 [65])⟩ uris) uris = ⟨0, [115], some (.string 0 [65])⟩ := by
  decide +kernel

/-- A node of the standard namespace has two names: given with the URI it is found, and named without. The registry of
types, a map with these names as keys, does not find the one under the other. -/
theorem C20_standard_fails :
    toNodeID ⟨0, [117, 97], some (.numeric 0 85)⟩ [[117, 97], [115]] = toNodeID ⟨0, [], some (.numeric 0 85)⟩ [[117, 97], [115]] ∧
    toExpanded (toNodeID ⟨0, [117, 97], some (.numeric 0 85)⟩ [[117, 97], [115]]) [[117, 97], [115]] =
      ⟨0, [], some (.numeric 0 85)⟩ := by
  decide +kernel

/-- A node of another server is taken for the node of this one that has the same id: the server index is dropped. -/
theorem C20_server_fails :
    toNodeID ⟨5, [115], some (.numeric 0 7)⟩ [[117, 97], [115]] = toNodeID ⟨0, [115], some (.numeric 0 7)⟩ [[117, 97], [115]] := by
  decide +kernel

end Opcua
