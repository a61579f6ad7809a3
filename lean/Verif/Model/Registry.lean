import Verif.Model.Scalars

/-! The registry of structure types, ua/binary_registry.go. -/
namespace Opcua.Registry

/-- `binaryEncodingTypes` (id → type) and `binaryEncodingIDs` (type → id),
ua/binary_registry.go:11-14. Go types are numbered. Calls are atomic here: registration
happens in `init` functions, one after the other. -/
structure St where
  types : ExpandedNodeID → Option Nat
  ids : Nat → Option ExpandedNodeID

def init : St := ⟨fun _ => none, fun _ => none⟩

inductive Out where
  | returned
  | panicked
deriving Repr, DecidableEq

/-- `sync.Map` update -/
def upd {α β} [DecidableEq α] (m : α → Option β) (k : α) (v : Option β) : α → Option β :=
  fun x => if x = k then v else m x

/-- RegisterBinaryEncodingID, ua/binary_registry.go:17-28: LoadOrStore id → typ, panic on a
different type; LoadOrStore typ → id, on a different id delete the first entry and panic. -/
def register (s : St) (typ : Nat) (id : ExpandedNodeID) : St × Out :=
  let second (types : ExpandedNodeID → Option Nat) : St × Out :=
    match s.ids typ with
    | some n => if n ≠ id then (⟨upd types id none, s.ids⟩, .panicked) else (⟨types, s.ids⟩, .returned)
    | none => (⟨types, upd s.ids typ (some id)⟩, .returned)
  match s.types id with
  | some t => if t ≠ typ then (s, .panicked) else second s.types
  | none => second (upd s.types id (some typ))

/-- A history of calls; a panic is recovered by the caller. -/
def run (s : St) : List (Nat × ExpandedNodeID) → St
  | [] => s
  | (typ, id) :: cs => run (register s typ id).1 cs

end Opcua.Registry
