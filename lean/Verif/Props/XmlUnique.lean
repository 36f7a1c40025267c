import Verif.Lemmas.XmlUnique
import Verif.Props.XmlDoc
/-!
# C75: an XML report has one reading
-/
namespace MBus
open MBus.Xml MBus.Spec MBus.Spec.Xml

/-- C75: no text is a document in two ways. -/
theorem C75_one_document (text name name' : List Char) (children children' : List Node)
    (h : Document text name children) (h' : Document text name' children') :
    name = name' ∧ children = children' := document_unique h h'

/-- C75: no text is a report about two devices or about two lists of records. -/
theorem C75_one_report (text : List Char) (info info' : List Node) (records records' : List (Nat × List Node))
    (h : IsReport text info records) (h' : IsReport text info' records') : info = info' ∧ records = records' := by
  obtain ⟨c, i, r, hd, he, hi, hr⟩ := h
  obtain ⟨c', i', r', hd', he', hi', hr'⟩ := h'
  obtain ⟨-, rfl⟩ := document_unique hd hd'
  rw [he] at he'
  simp only [List.cons.injEq, Node.element.injEq, true_and] at he'
  obtain ⟨rfl, rfl⟩ := he'
  exact ⟨hi.symm.trans hi', isRecords_unique hr hr'⟩

/-- There are reports: that of fixed data. -/
example : ∃ text info records, IsReport text info records ∧ records.length = 2 :=
  ⟨_, _, _, fixed_report 12345678 0x0A 0x00 0x7E29 1 135, rfl⟩

end MBus
