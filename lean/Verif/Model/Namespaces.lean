import Verif.Model.Text
import Verif.Model.Value
import Verif.Model.Registry

/-!
# The registry of structure types under the namespaces of a connection

The ids of structure types are registered with a namespace URI and sent with a namespace index: FindBinaryEncodingIDForType
and ToNodeID, ua/binary_encoder.go:778-787; ToExpandedNodeID and FindTypeForBinaryEncodingID, ua/binary_decoder.go:780-784.
-/
namespace Opcua.Namespaces

/-- The registry as the codec of a connection sees it, ua/binary_encoder.go:782-786 and ua/binary_decoder.go:782-784. -/
def regOf (s : Registry.St) (uris : List Bytes) (fields : Nat → List Ty) : Reg where
  fieldsOf := fields
  idOf := fun tag => (s.ids tag).map fun id => toNodeID id uris
  tyOf := fun n => s.types (toExpanded n uris)

end Opcua.Namespaces
