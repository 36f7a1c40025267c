import Verif.Spec.RecordOutput
import Verif.Model.Xml
import Verif.Spec.Product
/-!
# Specification of XML text: C49, C73, C75-C77

A small XML grammar (XML 1.0, without comments, CDATA sections, namespaces and single-quoted
attributes), as a relation between text and the tree it denotes.
-/
namespace MBus.Spec.Xml

/-- A character that XML 1.0 allows: tab, newline, carriage return, and everything from U+0020 on
except U+FFFE and U+FFFF (`Char` has no surrogates). -/
def xmlChar (c : Char) : Prop :=
  (c = '\t' ∨ c = '\n' ∨ c = '\r' ∨ 0x20 ≤ c.toNat) ∧ c.toNat ≠ 0xFFFE ∧ c.toNat ≠ 0xFFFF

instance (c : Char) : Decidable (xmlChar c) := inferInstanceAs (Decidable (_ ∧ _))

/-- The predefined entities a text may refer to. -/
def entities : List (List Char × Char) :=
  [(['a', 'm', 'p'], '&'), (['l', 't'], '<'), (['g', 't'], '>'), (['q', 'u', 'o', 't'], '"')]

/-- Reading a text with entities back: every `&` must start an entity, `<`, `>` and `"` must not occur
as such. -/
def unescape : List Char → Option (List Char)
  | [] => some []
  | '&' :: 'a' :: 'm' :: 'p' :: ';' :: rest => (unescape rest).map ('&' :: ·)
  | '&' :: 'l' :: 't' :: ';' :: rest => (unescape rest).map ('<' :: ·)
  | '&' :: 'g' :: 't' :: ';' :: rest => (unescape rest).map ('>' :: ·)
  | '&' :: 'q' :: 'u' :: 'o' :: 't' :: ';' :: rest => (unescape rest).map ('"' :: ·)
  | c :: rest =>
    if c = '&' ∨ c = '<' ∨ c = '>' ∨ c = '"' then none else (unescape rest).map (c :: ·)

/-- ASCII control characters: below U+0020 and DEL. -/
def isControl (c : Char) : Prop := c.toNat < 32 ∨ c.toNat = 127

instance (c : Char) : Decidable (isControl c) := inferInstanceAs (Decidable (_ ∨ _))

/-- Control characters replaced by a blank. -/
def blanked (text : List Char) : List Char := text.map (fun c => if isControl c then ' ' else c)

/-- An XML tree; text is kept as single characters. -/
inductive Node where
  | char (c : Char)
  | element (name : List Char) (attributes : List (List Char × List Char)) (children : List Node)

/-- A run of text as nodes. -/
def textNodes (text : List Char) : List Node := text.map .char

/-- Element and attribute names: letters. -/
def isName (name : List Char) : Prop := name ≠ [] ∧ ∀ c ∈ name, c.isAlpha = true

/-- `text` denotes the list of attributes: each is a blank, a name, `="`, a value without quotes,
markup characters, and a closing quote. -/
inductive Attributes : List Char → List (List Char × List Char) → Prop
  | nil : Attributes [] []
  | cons (name value text : List Char) (rest : List (List Char × List Char)) :
      isName name → (∀ c ∈ value, xmlChar c ∧ c ≠ '"' ∧ c ≠ '<' ∧ c ≠ '&') → Attributes text rest →
      Attributes (' ' :: name ++ '=' :: '"' :: value ++ '"' :: text) ((name, value) :: rest)

/-- `text` denotes the nodes: characters other than markup, entity references, and elements whose
start and end tags match. -/
inductive Content : List Char → List Node → Prop
  | nil : Content [] []
  | char (c : Char) (text : List Char) (nodes : List Node) :
      xmlChar c → c ≠ '<' → c ≠ '>' → c ≠ '&' → Content text nodes →
      Content (c :: text) (.char c :: nodes)
  | entity (name : List Char) (c : Char) (text : List Char) (nodes : List Node) :
      (name, c) ∈ entities → Content text nodes →
      Content ('&' :: name ++ ';' :: text) (.char c :: nodes)
  | element (name attributes body text : List Char) (attrs : List (List Char × List Char))
      (children nodes : List Node) :
      isName name → Attributes attributes attrs → Content body children → Content text nodes →
      Content ('<' :: name ++ attributes ++ '>' :: body ++ '<' :: '/' :: name ++ '>' :: text)
        (.element name attrs children :: nodes)

/-- A document: an XML declaration, one root element, a final newline. -/
def Document (text : List Char) (name : List Char) (children : List Node) : Prop :=
  ∃ body, text = "<?xml version=\"1.0\" encoding=\"ISO-8859-1\"?>\n".toList ++ body ∧
    Content body [.element name [] children, .char '\n']

/-- The elements among some nodes. -/
def elements : List Node → List Node
  | [] => []
  | .char _ :: rest => elements rest
  | .element n a c :: rest => .element n a c :: elements rest

/-- `<name>text</name>`. -/
def leaf (name text : List Char) : Node := .element name [] (textNodes text)

/-- The text a record's value is shown as. -/
def valueText (env : MBus.Xml.XmlEnv) : MBus.Xml.DecodedValue MBus.Xml.XmlReal → List Char
  | .real v => env.fmt6 v
  | .str text => blanked text

/-- The elements that describe a record: tariff and device only if the record has DIFEs. -/
def recordElements (env : MBus.Xml.XmlEnv) (n : MBus.Xml.NormalizedRecord) : List Node :=
  [leaf "Function".toList (blanked n.function),
   leaf "StorageNumber".toList (decimal n.storageNumber)]
  ++ (n.tariff.map (fun t =>
      [leaf "Tariff".toList (decimal t), leaf "Device".toList (decimal n.device)])).getD []
  ++ [leaf "Unit".toList (blanked n.unit), leaf "Quantity".toList (blanked n.quantity),
      leaf "Value".toList (valueText env n.value)]

/-- A record element with a number and the elements it contains. -/
def IsRecord (x : Node) (r : Nat × List Node) : Prop :=
  ∃ children, x = .element "DataRecord".toList [("id".toList, decimal r.1)] children ∧
    elements children = r.2

/-- The records that can be parsed, numbered from 0, with the elements that describe them; a record the
XML output cannot interpret has none. -/
def recordList (cfg : Cfg) (env : MBus.Xml.XmlEnv) (records : Option DataRecords) :
    List (Nat × List Node) :=
  (records.map (fun s => ((s.collect cfg).filterMap Res.toOption).zipIdx.map (fun (r, i) =>
    (i, ((MBus.Xml.normalizeRecord env r).map (recordElements env)).getD [])))).getD []

/-- `text` is a document with one slave information element containing the elements `info`, followed by
one element per record. -/
def IsReport (text : List Char) (info : List Node) (records : List (Nat × List Node)) : Prop :=
  ∃ children infoChildren recordNodes, Document text "MBusData".toList children ∧
    elements children = .element "SlaveInformation".toList [] infoChildren :: recordNodes ∧
    elements infoChildren = info ∧ List.Forall₂ IsRecord recordNodes records

/-- Identification of the device. -/
def identityElements (id : Nat) (manufacturer : List Char)
    (version medium : UInt8) : List Node :=
  [leaf "Id".toList (decimal id), leaf "Manufacturer".toList manufacturer,
   leaf "Version".toList (decimal version.toNat),
   leaf "ProductName".toList (productText manufacturer version medium id),
   leaf "Medium".toList (MBus.Xml.mediumLookup medium)]

/-- An element that is there if its value is. -/
def optionalLeaf (name : List Char) (text : Option (List Char)) : List Node :=
  (text.map (fun t => [leaf name t])).getD []

/-- No U+FFFE and U+FFFF, which XML does not allow. -/
def noNon (t : List Char) : Prop := ∀ c ∈ t, c.toNat ≠ 0xFFFE ∧ c.toNat ≠ 0xFFFF

instance (t : List Char) : Decidable (noNon t) := inferInstanceAs (Decidable (∀ c ∈ t, _))

/-- What is assumed of a parameter of the XML output: numbers are printed with letters, digits, point and sign.
`C135_plain` proves it of the numbers of `Model/XmlFloat`. -/
def PlainNumbers (env : MBus.Xml.XmlEnv) : Prop :=
  ∀ v, ∀ c ∈ env.fmt6 v, c.isAlphanum = true ∨ c = '.' ∨ c = '-'

/-! ## Character encoding -/

/-- Reading bytes as ISO-8859-1: every byte is the character with that code. -/
def latin1 (bytes : List UInt8) : List Char := bytes.map (fun b => Char.ofNat b.toNat)

/-! ## Dates -/

/-- The data the XML output shows as a date or time: 16 bits with VIF 6C; 32 or 48 bits with VIF 6D,
FD 30 or FD 70 (the extension bits of VIF and VIFE are ignored, except that of FD). -/
def showsDate (dif vif : UInt8) (vife : Option UInt8) : Prop :=
  (dif.toNat % 16 = 2 ∧ vif.toNat % 128 = 0x6C) ∨
  ((dif.toNat % 16 = 4 ∨ dif.toNat % 16 = 6) ∧
    (vif.toNat % 128 = 0x6D ∨ (vif = 0xFD ∧ ∃ b, vife = some b ∧ (b.toNat % 128 = 0x30 ∨ b.toNat % 128 = 0x70))))

/-- Type F (CP32) encoding of a date and time, EN 13757-3 annex A; `invalid` is the IV bit, `y` the
year within the century. -/
def encodeDateF (invalid : Bool) (y month day hour minute : Nat) : List UInt8 :=
  [UInt8.ofNat (minute + if invalid then 128 else 0), UInt8.ofNat hour,
   UInt8.ofNat (day + 32 * (y % 8)), UInt8.ofNat (month + 16 * (y / 8))]

/-- Type I (CP48) encoding of a date and time with seconds; the last byte (week number) is `week`. -/
def encodeDateI (invalid : Bool) (y month day hour minute second : Nat) (week : UInt8) : List UInt8 :=
  [UInt8.ofNat second, UInt8.ofNat (minute + if invalid then 128 else 0), UInt8.ofNat hour,
   UInt8.ofNat (day + 32 * (y % 8)), UInt8.ofNat (month + 16 * (y / 8)), week]

end MBus.Spec.Xml
