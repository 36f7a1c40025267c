import Verif.Model.Hexview
import Verif.Model.JsonText
/-!
# Model of the JSON of the annotated view

`serde_json` is built without `preserve_order`: the members of the objects of `json!` are in the order of
their names.
-/
namespace MBus

/-- The names `rename_all = "snake_case"` gives to `SegmentKind`, src/annotate.rs:15-56. -/
def SegmentKind.snakeCase : SegmentKind → String
  | .startByte => "start_byte"
  | .length => "length"
  | .cField => "c_field"
  | .aField => "a_field"
  | .checksum => "checksum"
  | .stopByte => "stop_byte"
  | .ciField => "ci_field"
  | .identificationNumber => "identification_number"
  | .manufacturerCode => "manufacturer_code"
  | .version => "version"
  | .deviceType => "device_type"
  | .accessNumber => "access_number"
  | .status => "status"
  | .configurationField => "configuration_field"
  | .encryptionConfigByte => "encryption_config_byte"
  | .dif => "dif"
  | .dife => "dife"
  | .vif => "vif"
  | .vife => "vife"
  | .plaintextVif => "plaintext_vif"
  | .dataPayload => "data_payload"
  | .lField => "l_field"
  | .wirelessManufacturerId => "wireless_manufacturer_id"
  | .crc => "crc"
  | .extendedLinkLayer => "extended_link_layer"
  | .encryptedPayload => "encrypted_payload"
  | .manufacturerSpecific => "manufacturer_specific"
  | .idleFiller => "idle_filler"
  | .unknown => "unknown"

/-- The names `rename_all = "snake_case"` gives to `Layer`, src/annotate.rs:95-102. -/
def Layer.snakeCase : Layer → String
  | .frame => "frame"
  | .appHeader => "app_header"
  | .recordField => "record_field"

/-- `ByteSegment` as a `serde_json::Value`, src/annotate.rs:105-120. -/
def ByteSegment.doc (s : ByteSegment) : Doc :=
  .obj (field "detail" (.str s.detail) ++ field "end" (.nat s.stop)
    ++ field "group" (match s.group with | some g => .nat g | none => .null)
    ++ field "kind" (.str s.kind.snakeCase.toList) ++ field "layer" (.str s.layer.snakeCase.toList)
    ++ field "start" (.nat s.start))

/-- Bytes as a `serde_json::Value`. -/
def bytesDoc (bytes : List UInt8) : Doc := .arr (bytes.map (fun b => .nat b.toNat))

/-- The object of `render_annotated_bytes`, src/mbus_data.rs:1226-1235 and 1246-1251. -/
def AnnotatedView.doc (v : AnnotatedView) : Doc :=
  .obj (field "bytes" (bytesDoc v.bytes) ++ field "decrypted" (.bool v.decrypted)
    ++ fieldOpt "original" (fun o : List UInt8 × List ByteSegment =>
      .obj (field "bytes" (bytesDoc o.1) ++ field "segments" (.arr (o.2.map ByteSegment.doc)))) v.original
    ++ field "schema_version" (.nat 3) ++ field "segments" (.arr (v.segments.map ByteSegment.doc)))

/-- The text of `render_annotated_bytes`, src/mbus_data.rs:1226 and 1246. -/
def AnnotatedView.text (v : AnnotatedView) : List Char := v.doc.text true 0

end MBus
