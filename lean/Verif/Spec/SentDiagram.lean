import Verif.Spec.SentTable
/-!
# Diagrams of telegrams

What the reader of a Mermaid diagram expects to find of a telegram and of the readings of a meter.
-/
namespace MBus.Spec

/-- Names of classes are words, and nothing but the end of a statement breaks the line. -/
def Stmt.Tidy : Stmt → Prop
  | .classDef name attributes => ' ' ∉ name ∧ '\n' ∉ name ∧ '\n' ∉ attributes
  | .classes _ name => '\n' ∉ name
  | .style _ attributes => '\n' ∉ attributes
  | _ => True

/-- The text is a Mermaid flowchart with these statements. -/
def Flowchart (text : List Char) (ss : List Stmt) : Prop :=
  text = ("flowchart TD".toList :: ss.map Stmt.text).flatMap (· ++ ['\n']) ∧ WellFormed ss ∧ ∀ s ∈ ss, s.Tidy

/-- The subgraphs, with their headings. -/
def groupsIn (ss : List Stmt) : List (List Char × List Char) :=
  ss.filterMap (fun s => match s with
    | .subgraph id label => some (id, label)
    | _ => none)

/-- The nodes, with the subgraph they are in and their labels. -/
def nodesIn : Option (List Char) → List Stmt → List (Option (List Char) × List Char × List Char)
  | _, [] => []
  | _, .subgraph id _ :: rest => nodesIn (some id) rest
  | _, .close :: rest => nodesIn none rest
  | g, .node _ id label :: rest => (g, id, label) :: nodesIn g rest
  | g, _ :: rest => nodesIn g rest

/-- The links, and whether they are visible. -/
def linksIn (ss : List Stmt) : List (Bool × List Char × List Char) :=
  ss.filterMap (fun s => match s with
    | .edge _ visible a b => some (visible, a, b)
    | _ => none)

/-- The classes of the nodes, which give them colours. -/
def classesIn (ss : List Stmt) : List (List Char × List Char) :=
  ss.flatMap (fun s => match s with
    | .classes ids name => ids.map (fun id => (id, name))
    | _ => [])

/-- A picture: subgraphs with headings, nodes with their subgraph, identifier and text, links, and classes of nodes. -/
structure Picture where
  groups : List (List Char × List Char)
  nodes : List (Option (List Char) × List Char × List Char)
  links : List (Bool × List Char × List Char)
  classes : List (List Char × List Char)

/-- The text is a diagram that shows the picture. -/
def Depicts (p : Picture) (text : List Char) : Prop :=
  ∃ ss, Flowchart text ss ∧ groupsIn ss = p.groups ∧ linksIn ss = p.links ∧ classesIn ss = p.classes ∧
    List.Forall₂ (fun n s => s.1 = n.1 ∧ s.2.1 = n.2.1 ∧ Shows s.2.2 n.2.2) p.nodes (nodesIn none ss)

/-- Links from each to the next. -/
def linkAll (visible : Bool) (ids : List (List Char)) : List (Bool × List Char × List Char) :=
  (ids.zip ids.tail).map (fun p => (visible, p.1, p.2))

/-! ## A telegram as a picture -/

/-- The frame: its kind, and function and address if there are any. -/
def frameFacts (o : DecodedOutput) : List (List Char × List Char) :=
  [("FRAME_KIND".toList, o.protocol ++ " · ".toList ++ o.frame.kind)] ++
  o.frame.function.toList.map (fun f => ("FRAME_FUNCTION".toList, "Function · ".toList ++ f)) ++
  o.frame.address.toList.map (fun a => ("FRAME_ADDRESS".toList, "Address · ".toList ++ a))

/-- The meter. -/
def meterFacts (i : MeterIdentity) : List (List Char × List Char) :=
  [("METER_ID".toList, "ID · ".toList ++ i.id.getD "unknown".toList),
   ("METER_MANUFACTURER".toList, "Manufacturer · ".toList ++ i.manufacturerCode.getD "unknown manufacturer".toList)] ++
  i.deviceType.toList.map (fun t => ("METER_TYPE".toList, "Type · ".toList ++ t)) ++
  i.version.toList.map (fun v => ("METER_VERSION".toList, "Version · ".toList ++ (toString v.toNat).toList))

/-- The records. -/
def recordFacts (env : TextEnv) (o : DecodedOutput) : List (List Char × List Char) :=
  o.records.map (fun r => ('R' :: (toString r.index).toList, (recordTexts env r).reading))

/-- The picture of a telegram: subgraphs for the frame, the meter, the security and the records, if there are any, the
nodes of each linked, the number and the first of the diagnostics, and eight colours for the records in turn. -/
def telegramPicture (env : TextEnv) (o : DecodedOutput) : Picture :=
  let meter := o.meter.identity.toList
  let some_records := if o.records = [] then [] else [()]
  let diagnostics := o.diagnostics.head?.toList
  let security := [("SECURITY_MODE".toList, o.security.payloadProtection),
    ("SECURITY_STATE".toList, o.security.decryptionState)]
  let inside := fun (group : String) (facts : List (List Char × List Char)) =>
    facts.map (fun f => (some group.toList, f.1, f.2))
  { groups := [("FRAME_SG".toList, "Frame".toList)] ++ meter.map (fun _ => ("METER_SG".toList, "Meter".toList)) ++
      [("SECURITY_SG".toList, "Security".toList)] ++
      some_records.map (fun _ => ("RECORDS_SG".toList, "Data Records · ".toList ++ (toString o.records.length).toList))
    nodes := inside "FRAME_SG" (frameFacts o) ++ meter.flatMap (fun i => inside "METER_SG" (meterFacts i)) ++
      inside "SECURITY_SG" security ++ inside "RECORDS_SG" (recordFacts env o) ++
      diagnostics.map (fun d => (none, "DIAG".toList,
        (toString o.diagnostics.length).toList ++ " diagnostic(s) · ".toList ++ d.code))
    links := linkAll true ((frameFacts o).map (·.1)) ++
      meter.flatMap (fun i => linkAll true ((meterFacts i).map (·.1)) ++ [(true, "FRAME_SG".toList, "METER_SG".toList)]) ++
      linkAll true (security.map (·.1)) ++ [(true, "FRAME_SG".toList, "SECURITY_SG".toList)] ++
      some_records.flatMap (fun _ => linkAll false ((recordFacts env o).map (·.1)) ++
        [(true, (if meter = [] then "FRAME_SG" else "METER_SG").toList, "RECORDS_SG".toList)]) ++
      diagnostics.map (fun _ => (true, "FRAME_SG".toList, "DIAG".toList))
    classes := (frameFacts o).map (fun f => (f.1, "frame".toList)) ++
      meter.flatMap (fun i => (meterFacts i).map (fun f => (f.1, "meter".toList))) ++
      security.map (fun f => (f.1, "security".toList)) ++
      o.records.map (fun r => ('R' :: (toString r.index).toList, "record".toList ++ (toString (r.index % 8)).toList)) ++
      diagnostics.map (fun _ => ("DIAG".toList, "diagnostic".toList)) }

/-! ## The readings of a meter -/

/-- The text is a diagram whose records are exactly the readings. -/
def DiagramReadings (real : UInt32 → List Char) (readings : List MeterReading) (text : List Char) : Prop :=
  ∃ p, Depicts p text ∧
    List.Forall₂ (fun (r : MeterReading × Nat) n => n.2.1 = 'R' :: (toString r.2).toList ∧ ReadingText real r.1 n.2.2)
      readings.zipIdx (p.nodes.filter (fun n => n.1 = some "RECORDS_SG".toList))

/-- The text is a diagram that names the meter. -/
def DiagramMeter (m : SentMeter) (text : List Char) : Prop :=
  ∃ p, Depicts p text ∧ p.nodes.filter (fun n => n.1 = some "METER_SG".toList) =
    ([("METER_ID", "ID · ".toList ++ eightDigits m.number), ("METER_MANUFACTURER", "Manufacturer · ".toList ++ threeLetters m),
      ("METER_TYPE", "Type · ".toList ++ deviceName m.device),
      ("METER_VERSION", "Version · ".toList ++ (toString m.version.toNat).toList)].map
      (fun n => (some "METER_SG".toList, n.1.toList, n.2)))

end MBus.Spec
