import Verif.Model.Lib
/-!
# Model of `src/structures/008_port_connector.rs` (Port Connector Information, type 8)
-/
namespace Dmi.port_connector

/-- `PortConnector`, `src/structures/008_port_connector.rs` 19-34. -/
structure PortConnector where
  handle : UInt16
  internal_reference_designator : Str
  internal_connector_type : ConnectorType
  external_reference_designator : Str
  external_connector_type : ConnectorType
  port_type : PortType
deriving DecidableEq, Repr

/-- `PortConnectorPacked` (5 bytes), `src/structures/008_port_connector.rs` 130-138. -/
structure PortConnectorPacked where
  internal_reference_designator : UInt8
  internal_connector_type : UInt8
  external_reference_designator : UInt8
  external_connector_type : UInt8
  port_type : UInt8

/-- Memory layout of `PortConnectorPacked`. -/
def PortConnectorPacked.packed : Packed PortConnectorPacked := do
  let internal_reference_designator ← .u8
  let internal_connector_type ← .u8
  let external_reference_designator ← .u8
  let external_connector_type ← .u8
  let port_type ← .u8
  pure {
    internal_reference_designator, internal_connector_type, external_reference_designator,
    external_connector_type, port_type }

/-- `PortConnector::try_from`, `src/structures/008_port_connector.rs` 129-149. -/
def PortConnector.try_from (s : RawStructure) : R PortConnector := do
  let packed ← letAsStruct PortConnectorPacked.packed s.data
  pure {
    handle := s.handle
    internal_reference_designator := ← s.find_string packed.internal_reference_designator
    internal_connector_type := ConnectorType.ofU8 packed.internal_connector_type
    external_reference_designator := ← s.find_string packed.external_reference_designator
    external_connector_type := ConnectorType.ofU8 packed.external_connector_type
    port_type := PortType.ofU8 packed.port_type }

end Dmi.port_connector
