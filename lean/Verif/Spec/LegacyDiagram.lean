import Mathlib.Data.List.Forall2
import Verif.Model.LegacyDiagram
/-!
# Specification of the older diagrams: C111
-/
namespace MBus.Spec

/-- The identifiers of nodes and subgraphs. -/
def oldDeclared : DiagramLine → Option (List Char)
  | .node _ id _ => some id
  | .subgraph id _ => some id
  | _ => none

/-- The label of a record: that of a node `R0`, `R1`, …. -/
def recordLabel : DiagramLine → Option (List Char)
  | .node _ ('R' :: d :: _) label => if d.isDigit then some label else none
  | _ => none

/-- The label of a record is its text in the other older outputs, escaped; the closing parenthesis is missing
where the text ends with the value. -/
def SameText (label : List Char) (r : RecordSummary) : Prop :=
  label = mermaidEscapeOld r.display ∨
    (r.exponent = none ∧ ∃ t, r.display = t ++ [')'] ∧ label = mermaidEscapeOld t)

/-- Subgraphs are opened and closed in turn. -/
def OldNested : (inside : Bool) → List DiagramLine → Prop
  | inside, [] => inside = false
  | inside, .subgraph _ _ :: rest => inside = false ∧ OldNested true rest
  | inside, .close :: rest => inside = true ∧ OldNested false rest
  | inside, _ :: rest => OldNested inside rest

/-- Capital letters, digits and underscores. -/
def OldIdentifier (id : List Char) : Prop :=
  id ≠ [] ∧ ∀ c ∈ id, ('A' ≤ c ∧ c ≤ 'Z') ∨ ('0' ≤ c ∧ c ≤ '9') ∨ c = '_'

/-- A diagram whose subgraphs are nested, whose identifiers are distinct, whose labels end where they
should, and whose edges and styles refer to nodes and subgraphs of the diagram, `missing` excepted. -/
structure OldDiagram (missing : List (List Char)) (ls : List DiagramLine) : Prop where
  nested : OldNested false ls
  distinct : (ls.filterMap oldDeclared).Nodup
  identifiers : ∀ id ∈ ls.filterMap oldDeclared, OldIdentifier id
  labels : ∀ l ∈ ls, ∀ n id label, l = .node n id label ∨ l = .subgraph id label →
    ∀ c ∈ label, c ∉ ['"', '[', ']']
  edges : ∀ l ∈ ls, ∀ a b, l = .chain a b ∨ l = .arrow a b →
    a ∈ ls.filterMap oldDeclared ++ missing ∧ b ∈ ls.filterMap oldDeclared ++ missing
  styles : ∀ l ∈ ls, ∀ id attributes, l = .style id attributes → id ∈ ls.filterMap oldDeclared ++ missing

/-- The label of a node or a subgraph. -/
def oldLabel : DiagramLine → Option (List Char)
  | .node _ _ label => some label
  | .subgraph _ label => some label
  | _ => none

/-! ## Reading a diagram -/

/-- The characters of identifiers. -/
def idChar (c : Char) : Bool := ('A' ≤ c && c ≤ 'Z') || ('0' ≤ c && c ≤ '9') || c == '_'

/-- A label in brackets and quotation marks. -/
def readLabel : List Char → Option (List Char)
  | '[' :: '"' :: rest => if rest.drop (rest.length - 2) = ['"', ']'] then some (rest.take (rest.length - 2)) else none
  | _ => none

/-- How Mermaid reads a line of a flowchart: `subgraph X["label"]`, `end`, `style X attributes`, `X~~~Y`, `X --> Y` or
`X["label"]`, after any number of spaces. -/
def readOld (line : List Char) : Option DiagramLine :=
  let t := line.dropWhile (· == ' ')
  if t = "end".toList then some .close
  else if t.take 9 = "subgraph ".toList then
    (readLabel ((t.drop 9).dropWhile idChar)).map (.subgraph ((t.drop 9).takeWhile idChar))
  else if t.take 6 = "style ".toList then
    match (t.drop 6).dropWhile idChar with
    | ' ' :: attributes => some (.style ((t.drop 6).takeWhile idChar) attributes)
    | _ => none
  else match t.dropWhile idChar with
    | '~' :: '~' :: '~' :: b => some (.chain (t.takeWhile idChar) b)
    | ' ' :: '-' :: '-' :: '>' :: ' ' :: b => some (.arrow (t.takeWhile idChar) b)
    | rest => (readLabel rest).map (.node (line.length - t.length) (t.takeWhile idChar))

/-- A text as its lines, each with a line end. -/
def TextLines (text : List Char) (lines : List (List Char)) : Prop :=
  text = lines.flatMap (· ++ ['\n']) ∧ ∀ l ∈ lines, '\n' ∉ l

end MBus.Spec
