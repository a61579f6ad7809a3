import Verif.Model.Attributes
import Verif.Model.Browse

/-!
# One address space behind Browse, TranslateBrowsePathsToNodeIds and Read

The three services work on the same node table (namespace_manager.go:30, FindNode 73-78). `Full` is a node with
everything the three look at; the models of Browse (`Browse`) and Read (`Attributes`) are run on the parts of it that
they use.

Simplifications: those of `Browse` and `Attributes`; who may browse a node is a list of users, the same for the
three services (server_service_set.go:1226-1231 and 6078-6081 make the same call); the value of a variable is left out,
it is not shown by Browse.
-/

namespace Opcua.Picture

open Opcua.AddressSpace Opcua.Browse

/-- A node of the table: the attributes, the references, and who may browse it. -/
structure Full where
  attrs : Attributes.Node
  refs : List Ref
  users : List Nat

/-- The table of the nodes, namespace_manager.go:30. -/
abbrev World := Id → Option Full

/-- What Browse looks at: References, NodeClass, BrowseName, DisplayName and UserRolePermissions,
server_service_set.go:1226-1301. -/
def Full.node (f : Full) : Node where
  refs := f.refs
  cls := f.attrs.body.nodeClass.toNat
  name := f.attrs.browseName
  users := f.users
  display := f.attrs.displayName

/-- The table as Browse and TranslateBrowsePathsToNodeIds see it. -/
def World.space (w : World) : Space := fun id => (w id).map Full.node

/-- The rights of a user on a node, as far as Read of the attributes that Browse shows goes:
server_service_set.go:6078-6081. -/
def Full.rights (f : Full) (user : Nat) : Attributes.User where
  permitted := fun p => if p = Attributes.permBrowse then f.users.contains user else false
  level := fun _ => 0
  executable := fun _ => false
  roles := fun _ => []

/-- Read of one attribute of a node by a user with a session, server_service_set.go:6063-6251. -/
def World.read (w : World) (user : Nat) (id : Id) (attr : Nat) : Attributes.Result :=
  match w id with
  | none => Attributes.readValue true ⟨fun _ => false, fun _ => 0, fun _ => false, fun _ => []⟩ none
      (fun _ => .bad .badNotReadable) { attr := attr }
  | some f => Attributes.readValue true (f.rights user) (some f.attrs) (fun _ => .bad .badNotReadable) { attr := attr }

end Opcua.Picture
