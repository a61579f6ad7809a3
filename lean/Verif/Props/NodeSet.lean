import Verif.Model.NodeSet
import Verif.Props.Text

/-! Properties C98 and C99: loading a node set. -/
namespace Opcua.NodeSet

namespace Spec

/-- "http://opcfoundation.org/UA/". -/
abbrev opcUa : Bytes := [104, 116, 116, 112, 58, 47, 47, 111, 112, 99, 102, 111, 117, 110, 100, 97, 116, 105, 111, 110, 46, 111,
  114, 103, 47, 85, 65, 47]

example : opcUa = "http://opcfoundation.org/UA/".toUTF8.toList := by decide +kernel

/-- The URI that a namespace index of a file stands for: index 0 is the OPC UA namespace, index
i + 1 is the i-th entry of the file's own table. -/
def fileUri (uris : List Bytes) (i : Nat) : Option Bytes := (opcUa :: uris)[i]?

/-- The identifier `b` in a server with namespace table `table` names the same node as the
identifier `a` in a file with the namespace table `uris`: same identifier, same URI. -/
def SameNode (uris table : List Bytes) (a b : NodeID) : Prop :=
  a.withNs 0 = b.withNs 0 ∧ ∃ u, fileUri uris a.ns.toNat = some u ∧ table[b.ns.toNat]? = some u

/-- The same for a qualified name. -/
def SameName (uris table : List Bytes) (a b : QualifiedName) : Prop :=
  a.name = b.name ∧ ∃ u, fileUri uris a.ns.toNat = some u ∧ table[b.ns.toNat]? = some u

/-- A text of the file stands for the identifier `a`: it, or the alias of that name, is a text
form of `a` (C17), and the index is one of the file's table. -/
def Denotes (f : File) (s : Bytes) (a : NodeID) : Prop :=
  NodeIDText (resolve f.aliases s) a ∧ a.ns.toNat ≤ f.uris.length

/-- The server's table has the OPC UA namespace at index 0, and the tables are not larger than
the indexes can number. -/
structure Fits (table : List Bytes) (uris : List Bytes) : Prop where
  ua : table[0]? = some opcUa
  file : uris.length < 65536
  both : table.length + uris.length ≤ 65536

end Spec
open Spec

/-! ## The namespace tables -/

theorem addUri_prefix (table : List Bytes) (u : Bytes) : table <+: (addUri table u).1 := by
  unfold addUri
  split
  · exact List.prefix_refl _
  · exact List.prefix_append _ _

theorem addUri_length (table : List Bytes) (u : Bytes) : (addUri table u).1.length ≤ table.length + 1 := by
  unfold addUri
  split <;> simp

theorem prefix_get {a b : List Bytes} {i : Nat} {u : Bytes} (h : a <+: b) (hi : a[i]? = some u) :
    b[i]? = some u := by
  obtain ⟨c, rfl⟩ := h
  rw [List.getElem?_append_left (by
    rcases Nat.lt_or_ge i a.length with hl | hl
    · exact hl
    · rw [List.getElem?_eq_none hl] at hi; cases hi)]
  exact hi

theorem get_lt {a : List Bytes} {i : Nat} {u : Bytes} (hi : a[i]? = some u) : i < a.length := by
  rcases Nat.lt_or_ge i a.length with hl | hl
  · exact hl
  · rw [List.getElem?_eq_none hl] at hi; cases hi

theorem addUri_index (table : List Bytes) (u : Bytes) (h : table.length < 65536) :
    (addUri table u).1[(addUri table u).2]? = some u := by
  unfold addUri
  split
  · rename_i i hi
    obtain ⟨_, h2, _⟩ := uriIndex_some hi
    simp only [Nat.sub_zero] at h2
    have := get_lt h2
    rw [Nat.mod_eq_of_lt (by omega)]
    exact h2
  · rw [Nat.mod_eq_of_lt h]
    simp

theorem mapUri_prefix (ns1 table : List Bytes) (m : NsMap) (i : Nat) (u : Bytes) :
    table <+: (mapUri ns1 table m i u).1 := by
  unfold mapUri
  split
  · exact List.prefix_refl _
  · exact addUri_prefix table u

theorem mapUri_length (ns1 table : List Bytes) (m : NsMap) (i : Nat) (u : Bytes) :
    (mapUri ns1 table m i u).1.length ≤ table.length + 1 := by
  unfold mapUri
  split
  · simp
  · exact addUri_length table u

theorem mapUri_other (ns1 table : List Bytes) (m : NsMap) (i : Nat) (u : Bytes) (x : Nat)
    (h : x ≠ (i + 1) % 65536) : (mapUri ns1 table m i u).2 x = m x := by
  unfold mapUri
  split <;> simp [h]

theorem mapUri_self (ns1 table : List Bytes) (m : NsMap) (i : Nat) (u : Bytes) (hp : ns1 <+: table)
    (hl : table.length < 65536) (hi : i + 1 < 65536) :
    ∃ j, (mapUri ns1 table m i u).2 (i + 1) = some j ∧ (mapUri ns1 table m i u).1[j]? = some u ∧
      j < 65536 := by
  unfold mapUri
  split
  · rename_i k hk
    obtain ⟨_, h2, _⟩ := uriIndex_some hk
    simp only [Nat.sub_zero] at h2
    have h3 := prefix_get hp h2
    have := get_lt h3
    refine ⟨k, ?_, h3, by omega⟩
    simp only [Nat.mod_eq_of_lt hi, if_pos]
    rw [Nat.mod_eq_of_lt (by omega)]
  · refine ⟨(addUri table u).2, ?_, addUri_index table u hl, ?_⟩
    · simp only [Nat.mod_eq_of_lt hi, if_pos]
    · unfold addUri
      split <;> exact Nat.mod_lt _ (by decide)

theorem mapUris_prefix (ns1 : List Bytes) (i : Nat) (us table : List Bytes) (m : NsMap) :
    table <+: (mapUris ns1 i us table m).1 := by
  induction us generalizing i table m with
  | nil => exact List.prefix_refl _
  | cons u us ih => exact (mapUri_prefix ns1 table m i u).trans (ih _ _ _)

theorem mapUris_below (ns1 : List Bytes) (i : Nat) (us table : List Bytes) (m : NsMap)
    (hi : i + us.length < 65536) (x : Nat) (hx : x ≤ i) : (mapUris ns1 i us table m).2 x = m x := by
  induction us generalizing i table m with
  | nil => rfl
  | cons u us ih =>
    simp only [List.length_cons] at hi
    show (mapUris ns1 (i + 1) us _ _).2 x = m x
    rw [ih (i + 1) _ _ (by omega) (by omega)]
    exact mapUri_other _ _ _ _ _ _ (by rw [Nat.mod_eq_of_lt (by omega)]; omega)

theorem mapUris_spec (ns1 : List Bytes) (i : Nat) (us table : List Bytes) (m : NsMap)
    (hp : ns1 <+: table) (hl : table.length + us.length ≤ 65536) (hi : i + us.length < 65536)
    (k : Nat) (u : Bytes) (hk : us[k]? = some u) :
    ∃ j, (mapUris ns1 i us table m).2 (i + 1 + k) = some j ∧
      (mapUris ns1 i us table m).1[j]? = some u ∧ j < 65536 := by
  induction us generalizing i table m k with
  | nil => cases hk
  | cons v us ih =>
    simp only [List.length_cons] at hi hl
    have hlen := mapUri_length ns1 table m i v
    cases k with
    | zero =>
      simp only [List.getElem?_cons_zero, Option.some.injEq] at hk
      subst hk
      obtain ⟨j, h1, h2, h3⟩ := mapUri_self ns1 table m i v hp (by omega) (by omega)
      refine ⟨j, ?_, prefix_get (mapUris_prefix ns1 (i + 1) us _ _) h2, h3⟩
      show (mapUris ns1 (i + 1) us _ _).2 (i + 1) = _
      rw [mapUris_below ns1 (i + 1) us _ _ (by omega) (i + 1) (Nat.le_refl _)]
      exact h1
    | succ k =>
      simp only [List.getElem?_cons_succ] at hk
      have := ih (i + 1) _ (mapUri ns1 table m i v).2 (hp.trans (mapUri_prefix ns1 table m i v))
        (by omega) (by omega) k hk
      rw [show i + 1 + (k + 1) = i + 1 + 1 + k by omega]
      exact this

/-- Every index of the file's table is translated to the index of the same URI. -/
theorem translate_spec {table uris : List Bytes} (h : Fits table uris) (i : Nat) (hi : i ≤ uris.length) :
    ∃ u, fileUri uris i = some u ∧
      (namespaces table uris).1[translate (namespaces table uris).2 i]? = some u ∧
      translate (namespaces table uris).2 i < 65536 := by
  obtain ⟨h0, hf, hb⟩ := h
  cases i with
  | zero =>
    refine ⟨opcUa, rfl, ?_⟩
    have : translate (namespaces table uris).2 0 = 0 := by
      unfold translate namespaces
      rw [mapUris_below table 0 uris table _ (by omega) 0 (Nat.le_refl _)]
      rfl
    rw [this]
    exact ⟨prefix_get (mapUris_prefix _ _ _ _ _) h0, by omega⟩
  | succ k =>
    cases hu : uris[k]? with
    | none => rw [List.getElem?_eq_none_iff] at hu; omega
    | some u =>
      refine ⟨u, by simpa [fileUri] using hu, ?_⟩
      obtain ⟨j, h1, h2, h3⟩ := mapUris_spec table 0 uris table (fun _ => none)
        (List.prefix_refl _) hb (by omega) k u hu
      have : translate (namespaces table uris).2 (k + 1) = j := by
        unfold translate namespaces
        rw [show k + 1 = 0 + 1 + k by omega, h1]
        rfl
      rw [this]
      exact ⟨h2, h3⟩

/-! ## Identifiers -/

theorem stripNs_none {ns : Nat} {s : Bytes} {a : NodeID} (h : IdentText ns s a) :
    stripPrefix [110, 115, 61] s = none := by
  cases h <;> simp [stripPrefix]

theorem identText_ns {ns : Nat} {s : Bytes} {a : NodeID} (h : IdentText ns s a) :
    a.ns = BitVec.ofNat 16 ns := by
  cases h <;> rfl

theorem loadIdent_spec {ns : Nat} {s : Bytes} {a : NodeID} (h : IdentText ns s a) (ns' : Nat) :
    loadIdent ns' s = some (a.withNs (BitVec.ofNat 16 ns')) := by
  cases h with
  | numeric t h1 h2 h3 h4 =>
    have := (parseUint_ok_iff 4294967295 t _).mpr ⟨h1, h2, rfl, by omega⟩
    unfold loadIdent
    rw [stripPrefix_append]
    simp only [this]
    rfl
  | string t => simp [loadIdent, stripPrefix, NodeID.withNs]
  | guid t g hg =>
    have hg := (parseGuid_iff _ _).mpr hg
    simp [loadIdent, stripPrefix, hg, NodeID.withNs]
  | opq t g hg =>
    have hg := (b64dec_iff _ _).mpr hg
    simp [loadIdent, stripPrefix, hg, NodeID.withNs]

/-- What a text of the file loads as. -/
theorem loadText_spec (m : NsMap) (hm : translate m 0 = 0) {s : Bytes} {a : NodeID} (h : NodeIDText s a) :
    loadText m s = some (a.withNs (BitVec.ofNat 16 (translate m a.ns.toNat))) := by
  cases h with
  | bare _ _ hi =>
    unfold loadText
    rw [stripNs_none hi]
    have : a.ns.toNat = 0 := by rw [identText_ns hi]; rfl
    rw [this, hm]
    exact loadIdent_spec hi 0
  | withNs d t _ h1 h2 h3 hi =>
    unfold loadText
    have hno : (59 : UInt8) ∉ [110, 115, 61] ++ d := by
      rw [List.mem_append, not_or]
      refine ⟨by decide, fun hc => ?_⟩
      have := h2 _ hc
      revert this; simp [isDigit]
    rw [show [110, 115, 61] ++ d ++ [59] ++ t = [110, 115, 61] ++ (d ++ 59 :: t) by simp, stripPrefix_append]
    simp only
    rw [show [110, 115, 61] ++ (d ++ 59 :: t) = ([110, 115, 61] ++ d) ++ 59 :: t by simp, cut_append _ hno]
    simp only [show ([110, 115, 61] ++ d).drop 3 = d from rfl]
    have hp := (parseUint_ok_iff 65535 d (digitsVal d)).mpr ⟨h1, h2, rfl, by omega⟩
    have hz : indexOrZero d = digitsVal d := by simp [indexOrZero, hp]
    have hn : a.ns.toNat = digitsVal d := by
      rw [identText_ns hi, BitVec.toNat_ofNat, Nat.mod_eq_of_lt h3]
    rw [hz, hn]
    exact loadIdent_spec hi _

theorem withNs_zero (a : NodeID) (n : BitVec 16) : a.withNs 0 = (a.withNs n).withNs 0 := by
  rw [NodeID.withNs_withNs]

theorem withNs_get (a : NodeID) (n : BitVec 16) : (a.withNs n).ns = n := by cases a <;> rfl

theorem translate_zero {table uris : List Bytes} (h : Fits table uris) :
    translate (namespaces table uris).2 0 = 0 := by
  unfold translate namespaces
  rw [mapUris_below table 0 uris table _ (by have := h.file; omega) 0 (Nat.le_refl _)]
  rfl

theorem denotes_load {table : List Bytes} {f : File} {s : Bytes} {a : NodeID} (h : Fits table f.uris)
    (hd : Denotes f s a) : ∃ b, loadNodeID f.aliases (namespaces table f.uris).2 s = some b ∧
      SameNode f.uris (namespaces table f.uris).1 a b := by
  obtain ⟨ht, hn⟩ := hd
  refine ⟨_, loadText_spec _ (translate_zero h) ht, withNs_zero _ _, ?_⟩
  obtain ⟨u, h1, h2, h3⟩ := translate_spec h a.ns.toNat hn
  refine ⟨u, h1, ?_⟩
  rw [withNs_get, BitVec.toNat_ofNat, Nat.mod_eq_of_lt h3]
  exact h2

/-! ## The loop -/

theorem loadNodes_mem {s : Space} {al : List (Bytes × Bytes)} {m : NsMap} {fs : List FileNode}
    {xs : List Node} (h : loadNodes s al m fs = .ok xs) (i : Nat) :
    (∀ n, fs[i]? = some n → ∃ x, xs[i]? = some x ∧ loadNode s al m n = .ok x) ∧
    (∀ x, xs[i]? = some x → ∃ n, fs[i]? = some n ∧ loadNode s al m n = .ok x) := by
  induction fs generalizing xs i with
  | nil => simp only [loadNodes] at h; cases h; simp
  | cons n fs ih =>
    simp only [loadNodes] at h
    cases hn : loadNode s al m n with
    | crash => rw [hn] at h; cases h
    | ok y =>
      rw [hn] at h
      simp only at h
      cases hr : loadNodes s al m fs with
      | crash => rw [hr] at h; cases h
      | ok ys =>
        rw [hr] at h
        cases h
        cases i with
        | zero =>
          simp only [List.getElem?_cons_zero, Option.some.injEq]
          exact ⟨fun _ e => ⟨y, rfl, e ▸ hn⟩, fun _ e => ⟨n, rfl, e ▸ hn⟩⟩
        | succ i =>
          simp only [List.getElem?_cons_succ]
          exact ih hr i

theorem load_ok {sv sv' : Server} {f : File} (h : load sv f = .ok sv') :
    sv'.table = (namespaces sv.table f.uris).1 ∧
    ∃ xs, loadNodes sv.space f.aliases (namespaces sv.table f.uris).2 f.nodes = .ok xs ∧
      sv'.space = store sv.space xs := by
  unfold load at h
  simp only at h
  split at h
  · cases h
  · rename_i xs hx
    cases h
    exact ⟨rfl, xs, hx, rfl⟩

theorem loadNode_fields {s : Space} {al : List (Bytes × Bytes)} {m : NsMap} {n : FileNode} {x : Node}
    (h : loadNode s al m n = .ok x) :
    n.kind ≠ .other ∧ x.id = loadNodeID al m n.nodeId ∧ x.kind = n.kind ∧
    x.browseName = loadBrowseName m n.browseName ∧ x.displayName = loadText' n.displayName ∧
    x.refs = n.refs.map (loadRef al m) ∧
    x.dataType = (if hasValue n.kind then loadNodeID al m n.dataType else none) ∧
    (if hasValue n.kind then loadValue s al m n else .ok .null) = .ok x.value := by
  unfold loadNode at h
  split at h
  · cases h
  · rename_i hk
    split at h
    · cases h
    · rename_i v hv
      cases h
      exact ⟨hk, rfl, rfl, rfl, rfl, rfl, rfl, hv⟩

theorem store_spec (s : Space) (xs : List Node) (id : Option NodeID) :
    (store s xs id = s id ∧ ∀ x ∈ xs, x.id ≠ id) ∨ (∃ x ∈ xs, x.id = id ∧ store s xs id = some x) := by
  induction xs generalizing s with
  | nil => exact .inl ⟨rfl, by simp⟩
  | cons y ys ih =>
    show (store _ ys id = s id ∧ _) ∨ _
    rcases ih (fun id => if id = y.id then some y else s id) with ⟨h1, h2⟩ | ⟨x, hx, h1, h2⟩
    · by_cases hy : id = y.id
      · refine .inr ⟨y, by simp, hy.symm, ?_⟩
        show store _ ys id = _
        rw [h1, if_pos hy]
      · refine .inl ⟨by rw [h1, if_neg hy], ?_⟩
        intro x hx
        rcases List.mem_cons.mp hx with rfl | hx
        · exact fun e => hy e.symm
        · exact h2 x hx
    · exact .inr ⟨x, by simp [hx], h1, h2⟩

/-! ## C98 A loaded node set keeps its meaning -/

/-- Loading only appends to the namespace table of the server: every index that a client or an
earlier file uses keeps its URI. -/
theorem C98_table (sv sv' : Server) (f : File) (h : load sv f = .ok sv') : sv.table <+: sv'.table := by
  rw [(load_ok h).1]
  exact mapUris_prefix _ _ _ _ _

/-- Every node of the file is in the server afterwards, under the identifier that names the same
node: the same identifier, and the namespace with the same URI. When the file has a later node
of the same identifier it is that one. -/
theorem C98_nodes (sv sv' : Server) (f : File) (n : FileNode) (a : NodeID) (h : load sv f = .ok sv')
    (hf : Fits sv.table f.uris) (hn : n ∈ f.nodes) (ha : Denotes f n.nodeId a) :
    ∃ b x, SameNode f.uris sv'.table a b ∧ sv'.space (some b) = some x ∧ x.id = some b ∧
      ∃ n' ∈ f.nodes, loadNodeID f.aliases (namespaces sv.table f.uris).2 n'.nodeId = some b ∧
        x.kind = n'.kind := by
  obtain ⟨ht, xs, hx, hs⟩ := load_ok h
  obtain ⟨b, hb, hsame⟩ := denotes_load hf ha
  obtain ⟨i, hi⟩ := List.mem_iff_getElem?.mp hn
  obtain ⟨y, hy, hload⟩ := (loadNodes_mem hx i).1 n hi
  have hid : y.id = some b := (loadNode_fields hload).2.1.trans hb
  rcases store_spec sv.space xs (some b) with ⟨_, h2⟩ | ⟨x, hxm, h1, h2⟩
  · exact absurd hid (h2 y (List.mem_of_getElem? hy))
  · obtain ⟨j, hj⟩ := List.mem_iff_getElem?.mp hxm
    obtain ⟨n', hn', hl'⟩ := (loadNodes_mem hx j).2 x hj
    have hfl := loadNode_fields hl'
    refine ⟨b, x, ?_, by rw [hs]; exact h2, h1, n', List.mem_of_getElem? hn', ?_, hfl.2.2.1⟩
    · rw [ht]; exact hsame
    · rw [← hfl.2.1]; exact h1

/-- A node of the server whose identifier the file does not use is untouched. -/
theorem C98_others (sv sv' : Server) (f : File) (id : Option NodeID) (h : load sv f = .ok sv')
    (hn : ∀ n ∈ f.nodes, loadNodeID f.aliases (namespaces sv.table f.uris).2 n.nodeId ≠ id) :
    sv'.space id = sv.space id := by
  obtain ⟨ht, xs, hx, hs⟩ := load_ok h
  rw [hs]
  rcases store_spec sv.space xs id with ⟨h1, _⟩ | ⟨x, hxm, h1, _⟩
  · exact h1
  · obtain ⟨j, hj⟩ := List.mem_iff_getElem?.mp hxm
    obtain ⟨n', hn', hl'⟩ := (loadNodes_mem hx j).2 x hj
    exact absurd ((loadNode_fields hl').2.1.symm.trans h1) (hn n' (List.mem_of_getElem? hn'))

/-- The references of a loaded node are those of the file, one for one and in order: the same
type, the same target, and inverse exactly when the file says IsForward="false". -/
theorem C98_references (sv sv' : Server) (f : File) (x : Node) (id : Option NodeID)
    (h : load sv f = .ok sv') (hf : Fits sv.table f.uris) (hx : sv'.space id = some x)
    (hnew : sv.space id ≠ some x) :
    ∃ n ∈ f.nodes, x.refs.length = n.refs.length ∧
      ∀ (i : Nat) (r : FileRef) (q : Ref), n.refs[i]? = some r → x.refs[i]? = some q →
        (q.isInverse = true ↔ r.isForward = "false".toUTF8.toList) ∧
        (∀ a, Denotes f r.type a → ∃ b, q.type = some b ∧ SameNode f.uris sv'.table a b) ∧
        (∀ a, Denotes f r.target a → ∃ b, q.target = some b ∧ SameNode f.uris sv'.table a b) := by
  obtain ⟨ht, xs, hxs, hs⟩ := load_ok h
  rw [hs] at hx
  rcases store_spec sv.space xs id with ⟨h1, _⟩ | ⟨y, hym, h1, h2⟩
  · exact absurd (h1.symm.trans hx) hnew
  · have hxy : y = x := by rw [h2] at hx; exact Option.some.inj hx
    subst hxy
    obtain ⟨j, hj⟩ := List.mem_iff_getElem?.mp hym
    obtain ⟨n, hn, hl⟩ := (loadNodes_mem hxs j).2 y hj
    have hr := (loadNode_fields hl).2.2.2.2.2.1
    refine ⟨n, List.mem_of_getElem? hn, by rw [hr]; simp, fun i r q hir hiq => ?_⟩
    rw [hr, List.getElem?_map, hir] at hiq
    simp only [Option.map_some, Option.some.injEq] at hiq
    subst hiq
    refine ⟨?_, fun a ha => ?_, fun a ha => ?_⟩
    · have hb : "false".toUTF8.toList = [102, 97, 108, 115, 101] := by decide +kernel
      rw [hb]
      simp [loadRef]
    · rw [ht]; exact denotes_load hf ha
    · rw [ht]; exact denotes_load hf ha

/-- Browse names are translated in the same way. -/
theorem C98_browseName (table : List Bytes) (uris : List Bytes) (q : QualifiedName)
    (hf : Fits table uris) (hq : q.ns.toNat ≤ uris.length) :
    SameName uris (namespaces table uris).1 q (loadBrowseName (namespaces table uris).2 (qnameStr q)) := by
  obtain ⟨u, h1, h2, h3⟩ := translate_spec hf q.ns.toNat hq
  have hno : (58 : UInt8) ∉ decStr q.ns.toNat := decStr_no _ (by decide)
  have : loadBrowseName (namespaces table uris).2 (qnameStr q) =
      ⟨BitVec.ofNat 16 (translate (namespaces table uris).2 q.ns.toNat), q.name⟩ := by
    unfold loadBrowseName qnameStr
    rw [cut_append _ hno]
    simp only
    rw [parseUint_decStr (by have := q.ns.isLt; omega)]
  rw [this]
  refine ⟨rfl, u, h1, ?_⟩
  show (namespaces table uris).1[(BitVec.ofNat 16 _).toNat]? = _
  rw [BitVec.toNat_ofNat, Nat.mod_eq_of_lt h3]
  exact h2

/-- Loading merges no two nodes of a file: when two identifiers of the file are loaded as the
same identifier, they had the same identifier in namespaces of the same URI. -/
theorem C98_distinct (uris table : List Bytes) (a a' b : NodeID) (h : SameNode uris table a b)
    (h' : SameNode uris table a' b) :
    a.withNs 0 = a'.withNs 0 ∧ fileUri uris a.ns.toNat = fileUri uris a'.ns.toNat := by
  obtain ⟨h1, u, h2, h3⟩ := h
  obtain ⟨h1', u', h2', h3'⟩ := h'
  refine ⟨h1.trans h1'.symm, ?_⟩
  rw [h2, h2', ← h3, ← h3']

/-- The order in which files are loaded does not change what they mean: on servers with
different tables the same identifier of a file is loaded as identifiers that ToExpandedNodeID
(C20) would print with the same URI. -/
theorem C98_portable (uris table table' : List Bytes) (a b b' : NodeID) (h : SameNode uris table a b)
    (h' : SameNode uris table' a b') :
    b.withNs 0 = b'.withNs 0 ∧ table[b.ns.toNat]? = table'[b'.ns.toNat]? := by
  obtain ⟨h1, u, h2, h3⟩ := h
  obtain ⟨h1', u', h2', h3'⟩ := h'
  refine ⟨h1.symm.trans h1', ?_⟩
  rw [h3, h3', ← h2, ← h2']

namespace Spec

/-- The escaping of character data in XML. -/
def escapeByte (c : UInt8) : Bytes :=
  if c = 38 then [38, 97, 109, 112, 59]
  else if c = 60 then [38, 108, 116, 59]
  else if c = 62 then [38, 103, 116, 59]
  else [c]

/-- The element `<DisplayName>t</DisplayName>`, as the decoder presents it. -/
def textElement (t : Bytes) : FileText := ⟨[], [], t.flatMap escapeByte⟩

end Spec

/-- A display name without characters that XML escapes is loaded as it is. -/
theorem C98_displayName_partial (t : Bytes) (h : ∀ c ∈ t, c ≠ 38 ∧ c ≠ 60 ∧ c ≠ 62) :
    loadText' (textElement t) = (t, []) := by
  have : t.flatMap escapeByte = t := by
    induction t with
    | nil => rfl
    | cons c cs ih =>
      have hc := h c (by simp)
      rw [List.flatMap_cons, ih (fun x hx => h x (by simp [hx]))]
      simp [escapeByte, hc]
  simp [loadText', textElement, this]

/-- A display name with child elements Text and Locale is loaded with both, whatever they hold. -/
theorem C98_displayNameText (t l c : Bytes) (h : t ≠ []) : loadText' ⟨t, l, c⟩ = (t, l) := by
  cases t with
  | nil => exact absurd rfl h
  | cons a t => simp [loadText']

example : loadText' ⟨[65, 38], [101, 110], []⟩ = ([65, 38], [101, 110]) := C98_displayNameText _ _ _ (by simp)

/-- A display name with an ampersand keeps its XML escape. -/
theorem C98_displayName_fails : ∃ t : Bytes, loadText' (textElement t) ≠ (t, []) :=
  ⟨[65, 38, 66], by decide⟩

/-! ### A file with its nodes -/

/-- "urn:a" and "urn:b". -/
abbrev urnA : Bytes := [117, 114, 110, 58, 97]
abbrev urnB : Bytes := [117, 114, 110, 58, 98]

/-- A server with the standard namespace, its own, and urn:a at index 2. -/
def plant : Server := ⟨[opcUa, [120], urnA], fun _ => none⟩

/-- The text "ns=1;i=7", and "Of", an alias of "i=35". -/
abbrev text17 : Bytes := nodeIDStr (.numeric 1 7)
abbrev text28 : Bytes := nodeIDStr (.numeric 2 8)
abbrev aliasOf : Bytes := [79, 102]

def emptyText : FileText := ⟨[], [], []⟩

/-- A file with urn:b at index 1 and urn:a at index 2, one object in each, one organizing the
other. -/
def sample : File where
  uris := [urnB, urnA]
  aliases := [(aliasOf, nodeIDStr (.numeric 0 35))]
  nodes := [
    ⟨.object, text17, qnameStr ⟨1, [88]⟩, textElement [88], [⟨aliasOf, [], text28⟩], [], -1, none⟩,
    ⟨.object, text28, qnameStr ⟨2, [89]⟩, textElement [89],
      [⟨aliasOf, [102, 97, 108, 115, 101], text17⟩], [], -1, none⟩]

theorem sample_fits : Fits plant.table sample.uris := ⟨by decide, by decide, by decide⟩

theorem nodeIDStr_text (n : NodeID) (h : n ≠ .numeric 0 0) : NodeIDText (nodeIDStr n) n :=
  (C17_accepted_texts _ _).mp (nodeIDStr_parse n h)

example : Denotes sample text17 (.numeric 1 7) := by
  refine ⟨?_, by decide⟩
  rw [show resolve sample.aliases text17 = nodeIDStr (.numeric 1 7) by decide +kernel]
  exact nodeIDStr_text _ (by decide)

example : Denotes sample aliasOf (.numeric 0 35) := by
  refine ⟨?_, by decide⟩
  rw [show resolve sample.aliases aliasOf = nodeIDStr (.numeric 0 35) by decide +kernel]
  exact nodeIDStr_text _ (by decide)

/-- What is loaded. -/
def loaded (sv : Server) (f : File) (id : Option NodeID) : Option Node :=
  match load sv f with
  | .crash => none
  | .ok sv' => sv'.space id

def tableAfter (sv : Server) (f : File) : Option (List Bytes) :=
  match load sv f with
  | .crash => none
  | .ok sv' => some sv'.table

example : tableAfter plant sample = some [opcUa, [120], urnA, urnB] := by decide +kernel
example : loaded plant sample (some (.numeric 3 7)) =
    some ⟨some (.numeric 3 7), .object, ⟨3, [88]⟩, ([88], []),
      [⟨some (.numeric 0 35), false, some (.numeric 2 8)⟩], none, .null⟩ := by decide +kernel
example : (loaded plant sample (some (.numeric 2 8))).map (·.refs) =
    some [⟨some (.numeric 0 35), true, some (.numeric 3 7)⟩] := by decide +kernel

/-! ### What loading does not do -/

/-- An object with the given identifier text and browse name. -/
def objectNode (id name : Bytes) : FileNode := ⟨.object, id, name, textElement name, [], [], -1, none⟩

/-- An index outside the file's own table is not refused: it is taken for an index of the server
and the node lands in a namespace that the file never named. -/
theorem C98_outside_fails : ∃ (sv : Server) (f : File) (x : Node), Fits sv.table f.uris ∧
    f.uris = [] ∧ loaded sv f (some (.numeric 2 7)) = some x ∧ sv.table[2]? = some urnA :=
  ⟨plant, ⟨[], [], [objectNode (nodeIDStr (.numeric 2 7)) [88]]⟩,
    ⟨some (.numeric 2 7), .object, ⟨0, [88]⟩, ([88], []), [], none, .null⟩,
    ⟨by decide, by decide, by decide⟩, rfl, by decide +kernel, by decide⟩

/-- The standard Objects folder. -/
def objects : Node := ⟨some (.numeric 0 85), .object, ⟨0, [79]⟩, ([79], []), [], none, .null⟩

/-- An identifier whose namespace index does not parse ("ns=x;i=85") is not refused: the index
becomes 0 and the node replaces a standard node. -/
theorem C98_malformed_fails : ∃ (sv : Server) (f : File) (x : Node),
    sv.space (some (.numeric 0 85)) = some objects ∧
    (∀ n ∈ f.nodes, ∀ a, ¬ Denotes f n.nodeId a) ∧
    loaded sv f (some (.numeric 0 85)) = some x ∧ x.browseName ≠ objects.browseName := by
  refine ⟨⟨[opcUa, [120]], fun id => if id = some (.numeric 0 85) then some objects else none⟩,
    ⟨[], [], [objectNode [110, 115, 61, 120, 59, 105, 61, 56, 53] [88]]⟩,
    ⟨some (.numeric 0 85), .object, ⟨0, [88]⟩, ([88], []), [], none, .null⟩,
    by decide, ?_, by decide +kernel, by decide⟩
  intro n hn a ha
  simp only [List.mem_singleton] at hn
  subst hn
  have h := (C17_accepted_texts _ _).mpr ha.1
  rw [show parseNodeID (resolve [] (objectNode [110, 115, 61, 120, 59, 105, 61, 56, 53] [88]).nodeId)
    = none by decide +kernel] at h
  cases h

/-- Nodes whose identifiers do not parse are stored without one, over one another, and loading
reports no error. -/
theorem C98_unparsed_fails : ∃ (f : File) (x : Node), f.nodes.length = 2 ∧
    loaded plant f none = some x ∧ ∀ id, id ≠ none → loaded plant f id = none := by
  refine ⟨⟨[], [], [objectNode [105, 61, 120] [88], objectNode [105, 61] [89]]⟩,
    ⟨none, .object, ⟨0, [89]⟩, ([89], []), [], none, .null⟩, rfl, by decide +kernel, ?_⟩
  intro id hid
  have : load plant ⟨[], [], [objectNode [105, 61, 120] [88], objectNode [105, 61] [89]]⟩ =
      .ok ⟨plant.table, store plant.space [
        ⟨none, .object, ⟨0, [88]⟩, ([88], []), [], none, .null⟩,
        ⟨none, .object, ⟨0, [89]⟩, ([89], []), [], none, .null⟩]⟩ := rfl
  unfold loaded
  rw [this]
  simp [store, hid, plant]

/-- The XML schema writes a false IsForward also as "0"; such a reference is loaded as a forward
one. -/
theorem C98_forward_fails : ∃ r : FileRef, r.isForward = "0".toUTF8.toList ∧
    (loadRef [] (fun _ => none) r).isInverse = false :=
  ⟨⟨[], [48], []⟩, by decide +kernel, by decide⟩

/-- A top-level element of a name the loader does not know crashes the server. -/
theorem C98_element_fails : ∃ f : File, load plant f = .crash :=
  ⟨⟨[], [], [{ objectNode text17 [88] with kind := .other }]⟩, rfl⟩

/-! ## C99 Values in node sets survive loading -/

/-- A variable node of the given data type with the given value. -/
def variableNode (id dataType : Bytes) (rank : Int) (v : Option Elem) : FileNode :=
  ⟨.variable_, id, [88], textElement [88], [], dataType, rank, v⟩

namespace Spec

/-- The built-in types, by their identifiers, whose values are numbers, text, bytes or times. -/
def typeIds : List (Nat × Plain) :=
  [(1, .boolean), (2, .sbyte), (3, .byte), (4, .int16), (5, .uint16), (6, .int32), (7, .uint32),
   (8, .int64), (9, .uint64), (10, .float), (11, .double), (12, .string), (13, .dateTime),
   (15, .byteString), (16, .xmlElement), (290, .double)]

/-- The attribute DataType of a node stands for the standard type with this number. -/
def Typed (f : File) (n : FileNode) (t : Nat) : Prop :=
  NodeIDText (resolve f.aliases n.dataType) (.numeric 0 (BitVec.ofNat 32 t))

end Spec

theorem plainOf_spec {t : Nat} {k : Plain} (h : (t, k) ∈ typeIds) :
    plainOf (.numeric 0 (BitVec.ofNat 32 t)) = some k := by
  simp only [typeIds, List.mem_cons, Prod.mk.injEq, List.not_mem_nil, or_false] at h
  rcases h with ⟨rfl, rfl⟩ | ⟨rfl, rfl⟩ | ⟨rfl, rfl⟩ | ⟨rfl, rfl⟩ | ⟨rfl, rfl⟩ | ⟨rfl, rfl⟩ | ⟨rfl, rfl⟩ |
    ⟨rfl, rfl⟩ | ⟨rfl, rfl⟩ | ⟨rfl, rfl⟩ | ⟨rfl, rfl⟩ | ⟨rfl, rfl⟩ | ⟨rfl, rfl⟩ | ⟨rfl, rfl⟩ | ⟨rfl, rfl⟩ |
    ⟨rfl, rfl⟩ <;> rfl

theorem typed_parse {f : File} {n : FileNode} {t : Nat} (h : Typed f n t) :
    parseNodeID (resolve f.aliases n.dataType) = some (.numeric 0 (BitVec.ofNat 32 t)) :=
  (C17_accepted_texts _ _).mpr h

/-- A scalar of one of the plain built-in types is loaded with the value of the file. -/
theorem C99_scalar_partial (s : Space) (f : File) (m : NsMap) (n : FileNode) (t : Nat) (k : Plain) (v : Int)
    (ht : (t, k) ∈ typeIds) (hd : Typed f n t) (hr : n.rank = -1) (hv : n.value = some (.plain k v)) :
    loadValue s f.aliases m n = .ok (.plain k v) := by
  unfold loadValue
  simp only [hr, if_pos, typed_parse hd, hv]
  unfold loadScalar
  rw [show (some (NodeID.numeric 0 (BitVec.ofNat 32 t))).bind plainOf = some k from plainOf_spec ht]
  simp

/-- So is a one-dimensional array. -/
theorem C99_array_partial (s : Space) (f : File) (m : NsMap) (n : FileNode) (t : Nat) (k : Plain) (vs : List Int)
    (ht : (t, k) ∈ typeIds) (hd : Typed f n t) (hr : n.rank = 1) (hv : n.value = some (.list k vs)) :
    loadValue s f.aliases m n = .ok (.list k vs) := by
  unfold loadValue
  simp only [hr, typed_parse hd, hv]
  rw [if_neg (by decide), if_pos trivial]
  unfold loadList
  rw [show (some (NodeID.numeric 0 (BitVec.ofNat 32 t))).bind plainOf = some k from plainOf_spec ht]
  simp

/-- A variable of type Number, Integer, UInteger or BaseDataType takes the type of its value. -/
theorem C99_abstract_partial (s : Space) (f : File) (m : NsMap) (n : FileNode) (t : Nat) (k : Plain) (v : Int)
    (ht : (t = 24) ∨ (t = 26 ∧ k ∈ [Plain.sbyte, .byte, .int16, .uint16, .int32, .uint32, .int64, .uint64, .float, .double]) ∨
      (t = 27 ∧ k ∈ [Plain.sbyte, .int16, .int32, .int64]) ∨ (t = 28 ∧ k ∈ [Plain.byte, .uint16, .uint32, .uint64]))
    (hd : Typed f n t) (hr : n.rank = -1) (hv : n.value = some (.plain k v)) :
    loadValue s f.aliases m n = .ok (.plain k v) := by
  unfold loadValue
  simp only [hr, if_pos, typed_parse hd, hv]
  rcases ht with rfl | ⟨rfl, hk⟩ | ⟨rfl, hk⟩ | ⟨rfl, hk⟩
  · rfl
  · cases k <;> simp_all <;> rfl
  · cases k <;> simp_all <;> rfl
  · cases k <;> simp_all <;> rfl

namespace Spec

/-- White space of XML files. -/
def White (c : UInt8) : Prop := c = 32 ∨ c = 9 ∨ c = 10 ∨ c = 11 ∨ c = 12 ∨ c = 13

/-- The text with white space around it. -/
def Padded (padded t : Bytes) : Prop :=
  ∃ u v, padded = u ++ t ++ v ∧ (∀ c ∈ u, White c) ∧ (∀ c ∈ v, White c) ∧
    (∀ c, t.head? = some c → ¬ White c) ∧ (∀ c, t.getLast? = some c → ¬ White c)

end Spec

theorem isSpace_iff (c : UInt8) : isSpace c = true ↔ White c := by
  unfold isSpace White
  simp only [decide_eq_true_eq, ← UInt8.toNat_inj]
  have h32 : (32 : UInt8).toNat = 32 := rfl
  have h9 : (9 : UInt8).toNat = 9 := rfl
  have h10 : (10 : UInt8).toNat = 10 := rfl
  have h11 : (11 : UInt8).toNat = 11 := rfl
  have h12 : (12 : UInt8).toNat = 12 := rfl
  have h13 : (13 : UInt8).toNat = 13 := rfl
  rw [h32, h9, h10, h11, h12, h13]
  omega

theorem drop_white (u t : Bytes) (hu : ∀ c ∈ u, White c) (ht : ∀ c, t.head? = some c → ¬ White c) :
    (u ++ t).dropWhile isSpace = t := by
  induction u with
  | nil =>
    cases t with
    | nil => rfl
    | cons a t =>
      have : isSpace a = false := by
        cases h : isSpace a with
        | false => rfl
        | true => exact absurd ((isSpace_iff a).1 h) (ht a rfl)
      simp [this]
  | cons a u ih =>
    rw [List.cons_append, List.dropWhile_cons_of_pos ((isSpace_iff a).2 (hu a (by simp)))]
    exact ih (fun c hc => hu c (by simp [hc]))

theorem drop_all_white (v : Bytes) (hv : ∀ c ∈ v, White c) : v.dropWhile isSpace = [] := by
  induction v with
  | nil => rfl
  | cons a v ih =>
    rw [List.dropWhile_cons_of_pos ((isSpace_iff a).2 (hv a (by simp)))]
    exact ih (fun c hc => hv c (by simp [hc]))

theorem trim_padded (p t : Bytes) (h : Padded p t) : trim p = t := by
  obtain ⟨u, v, rfl, hu, hv, h1, h2⟩ := h
  unfold trim
  cases t with
  | nil =>
    rw [List.append_nil, drop_all_white (u ++ v) (fun c hc => (List.mem_append.1 hc).elim (hu c) (hv c))]
    rfl
  | cons a t =>
    rw [List.append_assoc, drop_white u (a :: t ++ v) hu (fun c hc => h1 c (by simpa using hc)), List.reverse_append,
      drop_white v.reverse (a :: t).reverse (fun c hc => hv c (List.mem_reverse.1 hc)) (fun c hc => h2 c (by
        rwa [List.head?_reverse] at hc)), List.reverse_reverse]

/-- A localized text is loaded with its text and locale, without the white space around them, also into a variable of
type BaseDataType. -/
theorem C99_text_partial (s : Space) (f : File) (m : NsMap) (n : FileNode) (d : Nat) (t l t' l' : Bytes)
    (hd : Typed f n d) (h21 : d = 21 ∨ d = 24) (hr : n.rank = -1) (hv : n.value = some (.localizedText t' l'))
    (ht : Padded t' t) (hl : Padded l' l) :
    loadValue s f.aliases m n = .ok (.localizedText t l) := by
  rw [← trim_padded t' t ht, ← trim_padded l' l hl]
  unfold loadValue
  simp only [hr, if_pos, typed_parse hd, hv]
  rcases h21 with rfl | rfl <;> rfl

example : Padded [10, 32, 65, 32, 66, 10] [65, 32, 66] := by
  refine ⟨[10, 32], [10], rfl, ?_, ?_, ?_, ?_⟩ <;> simp [White]

/-- **C99 (types).** Whatever the file holds, a variable of a plain built-in type has a value of that type or none. -/
theorem C99_typed (s : Space) (f : File) (m : NsMap) (n : FileNode) (t : Nat) (k : Plain) (v : Val)
    (ht : (t, k) ∈ typeIds) (hd : Typed f n t) (h : loadValue s f.aliases m n = .ok v) :
    v = .null ∨ (∃ x, v = .plain k x) ∨ ∃ xs, v = .list k xs := by
  unfold loadValue at h
  simp only [typed_parse hd] at h
  have hp : (some (NodeID.numeric 0 (BitVec.ofNat 32 t))).bind plainOf = some k := plainOf_spec ht
  split at h
  · unfold loadScalar at h
    rw [hp] at h
    simp only at h
    repeat' split at h
    all_goals first
      | (injection h with h; subst h; first | exact .inl rfl | exact .inr (.inl ⟨_, rfl⟩))
      | (rename_i hk; injection h with h; subst h; subst hk; exact .inr (.inl ⟨_, rfl⟩))
  · split at h
    · unfold loadList at h
      rw [hp] at h
      simp only at h
      repeat' split at h
      all_goals first
        | (injection h with h; subst h; first | exact .inl rfl | exact .inr (.inr ⟨_, rfl⟩))
        | (rename_i hk; injection h with h; subst h; subst hk; exact .inr (.inr ⟨_, rfl⟩))
    · injection h with h; subst h; exact .inl rfl

/-- The arguments of a method are loaded one for one, with their data types translated. -/
theorem C99_arguments (sv : Server) (f : File) (n : FileNode) (as : List FileArg)
    (hf : Fits sv.table f.uris) (hd : Typed f n 296) (hr : n.rank = 1)
    (hv : n.value = some (.extensions (as.map (fun a => ⟨some a, none, none, none⟩)))) :
    ∃ bs, loadValue sv.space f.aliases (namespaces sv.table f.uris).2 n = .ok (.arguments bs) ∧
      bs.length = as.length ∧ ∀ (i : Nat) (a : FileArg) (b : Arg), as[i]? = some a → bs[i]? = some b →
        b.name = a.name ∧ ∀ x, Denotes f a.dataType x →
          ∃ y, b.dataType = some y ∧ SameNode f.uris (namespaces sv.table f.uris).1 x y := by
  have hall : ∀ as : List FileArg,
      allSome (fun o : Ext => o.argument) (as.map (fun a => ⟨some a, none, none, none⟩)) = some as := by
    intro as
    induction as with
    | nil => rfl
    | cons a as ih => simp [allSome, ih]
  refine ⟨as.map (loadArg f.aliases (namespaces sv.table f.uris).2), ?_, by simp, ?_⟩
  · unfold loadValue
    simp only [hr, typed_parse hd, hv]
    rw [if_neg (by decide), if_pos trivial]
    show loadList _ _ (some (.numeric 0 296)) _ = _
    have hn : (some (NodeID.numeric 0 296)).bind plainOf = none := rfl
    unfold loadList
    rw [hn]
    show (match allSome (fun o : Ext => o.argument) (as.map (fun a => ⟨some a, none, none, none⟩)) with
      | some as => Outcome.ok (Val.arguments (as.map (loadArg f.aliases (namespaces sv.table f.uris).2)))
      | none => Outcome.crash) = _
    rw [hall]
  · intro i a b ha hb
    rw [List.getElem?_map, ha] at hb
    simp only [Option.map_some, Option.some.injEq] at hb
    subst hb
    exact ⟨rfl, fun x hx => denotes_load hf hx⟩

namespace Spec

/-- `t` is a supertype of the data type `id`: the node has an inverse HasSubtype reference (i=45) to it. -/
def SuperType (s : Space) (id t : Option NodeID) : Prop :=
  ∃ n, s id = some n ∧ ∃ r ∈ n.refs, r.isInverse = true ∧ r.type = some (.numeric 0 45) ∧ r.target = t

/-- `id` is below Enumeration (i=29), at most `k` steps. -/
inductive Enumerated (s : Space) : Nat → Option NodeID → Prop where
  | one {k id} (h : SuperType s id (some (.numeric 0 29))) : Enumerated s (k + 1) id
  | more {k id t} (h : SuperType s id t) (h' : Enumerated s k t) : Enumerated s (k + 1) id

/-- No type has two supertypes. -/
def Single (s : Space) : Prop := ∀ id t t', SuperType s id t → SuperType s id t' → t = t'

end Spec

theorem superType_spec {s : Space} (h1 : Single s) {id t : Option NodeID} (h : SuperType s id t) : superType s id = some t := by
  have h0 := h
  obtain ⟨n, hn, r, hr, hi, ht, he⟩ := h
  unfold superType
  rw [hn]
  simp only
  cases hf : n.refs.find? (fun r => r.isInverse && decide (r.type = some hasSubtype)) with
  | none => exact absurd (List.find?_eq_none.1 hf r hr) (by simp [hi, ht])
  | some q =>
    have hq := List.find?_some hf
    simp only [Bool.and_eq_true, decide_eq_true_eq] at hq
    rw [h1 id t q.target h0 ⟨n, hn, q, List.mem_of_find?_eq_some hf, hq.1, hq.2, rfl⟩]
    rfl

theorem isSubtype_spec {s : Space} (h1 : Single s) {k : Nat} {id : Option NodeID} (h : Enumerated s k id) :
    isSubtypeLoop s enumeration k id = true := by
  induction h with
  | one h => rw [isSubtypeLoop, superType_spec h1 h]; simp
  | more h _ ih =>
    rw [isSubtypeLoop, superType_spec h1 h]
    simp only
    split
    · rfl
    · exact ih

/-- An enumeration of an earlier file, not more than 101 steps below Enumeration: its Int32 value is kept. -/
theorem C99_enum_partial (s : Space) (f : File) (m : NsMap) (n : FileNode) (v : Int) (h1 : Single s)
    (hd : ∀ t, parseNodeID (resolve f.aliases n.dataType) ≠ some (.numeric 0 t))
    (he : Enumerated s 101 (loadNodeID f.aliases m (resolve f.aliases n.dataType)))
    (hr : n.rank = -1) (hv : n.value = some (.plain .int32 v)) :
    loadValue s f.aliases m n = .ok (.plain .int32 v) := by
  have he : isSubtype s (loadNodeID f.aliases m (resolve f.aliases n.dataType)) enumeration = true := isSubtype_spec h1 he
  unfold loadValue
  simp only [hr, if_pos, he, hv]
  generalize parseNodeID (resolve f.aliases n.dataType) = dt at hd
  have hp : dt.bind plainOf = none := by
    cases dt with
    | none => rfl
    | some id =>
      cases id with
      | numeric ns t =>
        show plainOf (.numeric ns t) = none
        unfold plainOf
        split <;> first | rfl | (rename_i h; cases h; exact absurd rfl (hd _))
      | string _ _ => rfl
      | guid _ _ => rfl
      | opq _ _ => rfl
  unfold loadScalar
  rw [hp]
  simp only
  split <;> first | rfl | exact absurd rfl (hd _)

/-- What is loaded is what the server has afterwards: a variable or a variable type of the file has the value read for it and
the data type that names the same node, and a node of another class has neither. -/
theorem C99_stored (sv sv' : Server) (f : File) (x : Node) (id : Option NodeID) (h : load sv f = .ok sv')
    (hf : Fits sv.table f.uris) (hx : sv'.space id = some x) (hnew : sv.space id ≠ some x) :
    ∃ n ∈ f.nodes, x.kind = n.kind ∧
      (n.kind = .variable_ ∨ n.kind = .variableType →
        loadValue sv.space f.aliases (namespaces sv.table f.uris).2 n = .ok x.value ∧
        ∀ a, Denotes f n.dataType a → ∃ b, x.dataType = some b ∧ SameNode f.uris sv'.table a b) ∧
      (n.kind ≠ .variable_ → n.kind ≠ .variableType → x.value = .null ∧ x.dataType = none) := by
  obtain ⟨ht, xs, hxs, hs⟩ := load_ok h
  rw [hs] at hx
  rcases store_spec sv.space xs id with ⟨e1, _⟩ | ⟨y, hym, e1, e2⟩
  · exact absurd (e1.symm.trans hx) hnew
  · have hxy : y = x := by rw [e2] at hx; exact Option.some.inj hx
    subst hxy
    obtain ⟨j, hj⟩ := List.mem_iff_getElem?.mp hym
    obtain ⟨n, hn, hl⟩ := (loadNodes_mem hxs j).2 y hj
    obtain ⟨_, _, hk, _, _, _, hdt, hv⟩ := loadNode_fields hl
    refine ⟨n, List.mem_of_getElem? hn, hk, ?_, ?_⟩
    · intro hkind
      have hh : hasValue n.kind = true := by simp [hasValue, hkind]
      rw [hh] at hv hdt
      refine ⟨by simpa using hv, ?_⟩
      intro a ha
      rw [hdt, ht]
      exact denotes_load hf ha
    · intro h1 h2
      have hh : hasValue n.kind = false := by simp [hasValue, h1, h2]
      rw [hh] at hv hdt
      simp only [Bool.false_eq_true, if_false] at hv hdt
      injection hv with hv
      exact ⟨hv.symm, hdt⟩

/-! ### Cases -/

/-- The value of the variable with identifier ns=3;i=7 after loading. -/
def valueOf (sv : Server) (f : File) : Option Val := (loaded sv f (some (.numeric 3 7))).map (·.value)

/-- A file of one variable in urn:b, which is ns=1 in the file and ns=3 in the server. -/
def oneVariable (dataType : Nat) (rank : Int) (v : Elem) : File :=
  ⟨[urnB], [], [variableNode text17 (nodeIDStr (.numeric 0 (BitVec.ofNat 32 dataType))) rank (some v)]⟩

example : Typed (oneVariable 11 (-1) (.plain .double 5))
    (variableNode text17 (nodeIDStr (.numeric 0 11)) (-1) (some (.plain .double 5))) 11 :=
  nodeIDStr_text (.numeric 0 11) (by decide)

example : valueOf plant (oneVariable 11 (-1) (.plain .double 5)) = some (.plain .double 5) := by decide +kernel
example : valueOf plant (oneVariable 12 1 (.list .string [5, 6])) = some (.list .string [5, 6]) := by
  decide +kernel
example : valueOf plant (oneVariable 26 (-1) (.plain .uint64 5)) = some (.plain .uint64 5) := by decide +kernel
example : valueOf plant (oneVariable 884 (-1) (.extension ⟨none, none, some 9, none⟩)) = some (.range 9) := by
  decide +kernel
example : valueOf plant (oneVariable 296 1 (.extensions [⟨some ⟨[65], text17⟩, none, none, none⟩])) =
    some (.arguments [⟨[65], some (.numeric 3 7)⟩]) := by decide +kernel

/-- The namespace index inside a NodeId value is not translated: the value names another node. -/
theorem C99_nodeId_fails : ∃ (sv : Server) (f : File) (b : NodeID), Fits sv.table f.uris ∧
    f.nodes.map (·.value) = [some (.nodeId (nodeIDStr (.numeric 1 7)))] ∧
    valueOf sv f = some (.nodeId (some b)) ∧
    ∀ table, tableAfter sv f = some table → ¬ SameNode f.uris table (.numeric 1 7) b := by
  refine ⟨plant, oneVariable 17 (-1) (.nodeId text17), .numeric 1 7, ⟨by decide, by decide, by decide⟩,
    rfl, by decide +kernel, ?_⟩
  intro table ht
  rw [show tableAfter plant (oneVariable 17 (-1) (.nodeId text17)) = some [opcUa, [120], urnA, urnB]
    by decide +kernel] at ht
  cases ht
  rintro ⟨_, u, h1, h2⟩
  rw [show fileUri (oneVariable 17 (-1) (.nodeId text17)).uris (NodeID.numeric 1 7).ns.toNat = some urnB
    by decide] at h1
  cases h1
  revert h2
  decide

/-- Nor is the index inside a QualifiedName value. -/
theorem C99_qualifiedName_fails : ∃ (sv : Server) (f : File) (b : QualifiedName), Fits sv.table f.uris ∧
    f.nodes.map (·.value) = [some (.qualifiedName 1 [88])] ∧
    valueOf sv f = some (.qualifiedName b) ∧
    ∀ table, tableAfter sv f = some table → ¬ SameName f.uris table ⟨1, [88]⟩ b := by
  refine ⟨plant, oneVariable 20 (-1) (.qualifiedName 1 [88]), ⟨1, [88]⟩, ⟨by decide, by decide, by decide⟩,
    rfl, by decide +kernel, ?_⟩
  intro table ht
  rw [show tableAfter plant (oneVariable 20 (-1) (.qualifiedName 1 [88])) = some [opcUa, [120], urnA, urnB]
    by decide +kernel] at ht
  cases ht
  rintro ⟨_, u, h1, h2⟩
  rw [show fileUri (oneVariable 20 (-1) (.qualifiedName 1 [88])).uris
    (⟨1, [88]⟩ : QualifiedName).ns.toNat = some urnB by decide] at h1
  cases h1
  revert h2
  decide

/-- Values of a subtype of a built-in type are dropped, here a UtcTime (i=294), a DateTime. -/
theorem C99_subtype_fails : valueOf plant (oneVariable 294 (-1) (.plain .dateTime 5)) = some .null := by
  decide +kernel

/-- Values of every rank but -1 and 1 are dropped: any (-2), scalar or one dimension (-3), one or
more dimensions (0), and matrices. -/
theorem C99_rank_fails (s : Space) (al : List (Bytes × Bytes)) (m : NsMap) (n : FileNode)
    (h : n.rank ≠ -1) (h' : n.rank ≠ 1) : loadValue s al m n = .ok .null := by
  simp [loadValue, h, h']

example : valueOf plant (oneVariable 12 (-2) (.plain .string 5)) = some .null := by decide +kernel

/-- The enumeration ns=1;i=9, a subtype of Enumeration. -/
def enumType : FileNode :=
  ⟨.dataType, nodeIDStr (.numeric 1 9), [69], textElement [69],
    [⟨nodeIDStr (.numeric 0 45), [102, 97, 108, 115, 101], nodeIDStr (.numeric 0 29)⟩], [], -1, none⟩

/-- A file with an enumeration and a variable of that type. -/
def enumFile (types : List FileNode) : File :=
  ⟨[urnB], [], types ++ [variableNode text17 (nodeIDStr (.numeric 1 9)) (-1) (some (.plain .int32 2))]⟩

/-- The server after loading. -/
def after (sv : Server) (f : File) : Server :=
  match load sv f with
  | .crash => sv
  | .ok sv' => sv'

/-- When the enumeration is in the same file as the variable the value is dropped, because the
types of the file are not in the address space yet; from an earlier file it is kept. -/
theorem C99_enum_fails : valueOf plant (enumFile [enumType]) = some .null ∧
    valueOf (after plant ⟨[urnB], [], [enumType]⟩) (enumFile []) = some (.plain .int32 2) := by
  constructor <;> decide +kernel

example : Enumerated (after plant ⟨[urnB], [], [enumType]⟩).space 101 (some (.numeric 3 9)) := by
  refine .one ⟨⟨some (.numeric 3 9), .dataType, ⟨0, [69]⟩, ([69], []), [⟨some (.numeric 0 45), true, some (.numeric 0 29)⟩], none, .null⟩,
    by decide +kernel, _, List.mem_singleton_self _, rfl, rfl, rfl⟩

/-- A variable without the attribute DataType, for which the schema says BaseDataType, is loaded
without a data type and without its value. -/
theorem C99_default_fails : ∃ f : File, f.nodes.map (·.value) = [some (.plain .int32 2)] ∧
    f.nodes.map (·.dataType) = [[]] ∧ valueOf plant f = some .null ∧
    (loaded plant f (some (.numeric 3 7))).map (·.dataType) = some none :=
  ⟨⟨[urnB], [], [variableNode text17 [] (-1) (some (.plain .int32 2))]⟩, rfl, rfl,
    by decide +kernel, by decide +kernel⟩

/-- Loading the file panics. -/
def crashes (sv : Server) (f : File) : Bool :=
  match load sv f with
  | .crash => true
  | .ok _ => false

/-- An extension object with a body the loader does not know crashes it, in a Range variable and
in a list of arguments. -/
theorem C99_extension_fails :
    crashes plant (oneVariable 884 (-1) (.extension ⟨none, none, none, none⟩)) = true ∧
    crashes plant (oneVariable 296 1 (.extensions [⟨none, none, none, none⟩])) = true := by
  constructor <;> decide +kernel

end Opcua.NodeSet
