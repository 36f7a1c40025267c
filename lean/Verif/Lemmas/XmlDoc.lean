import Verif.Lemmas.Xml
import Verif.Lemmas.UserData
import Verif.Lemmas.Product
import Verif.Props.Core
/-! Helper lemmas: the shape of the XML documents. -/
namespace MBus
open Spec Spec.Xml Xml

theorem digit_plain (c : Char) (h : '0' ≤ c ∧ c ≤ '9') : plain c := by
  have h0 := h
  rw [char_le_iff, char_le_iff] at h
  have e1 : ('9' : Char).toNat = 57 := rfl
  have e2 : ('0' : Char).toNat = 48 := rfl
  refine ⟨⟨Or.inr (Or.inr (Or.inr (by omega))), by omega, by omega⟩, ?_, ?_, ?_⟩ <;>
    (rintro rfl; revert h; decide)

theorem natText_content (n : Nat) : Content (natText n) (textNodes (decimal n)) := by
  unfold natText
  rw [toDigits_eq]
  exact content_plain _ (fun c hc => digit_plain c (decimal_plain n c hc))

theorem hex2_content (b : UInt8) : Content (hex2 b) (textNodes (hex2 b)) :=
  content_plain _ (fun c hc => (hex2_plain b c hc).1)

theorem alnum_plain (c : Char) (h : c.isAlphanum = true ∨ c = '.' ∨ c = '-') : plain c := by
  refine char_ascii (fun c => c.isAlphanum = true ∨ c = '.' ∨ c = '-' → plain c) (by decide +kernel) ?_ c h
  intro c hc h
  exfalso
  rcases h with h | rfl | rfl
  · simp only [Char.isAlphanum, Char.isAlpha, Char.isUpper, Char.isLower, Char.isDigit, Bool.or_eq_true,
      Bool.and_eq_true, decide_eq_true_eq] at h
    have e' : ∀ u : UInt32, c.val ≤ u → c.toNat ≤ u.toNat := fun u h => UInt32.le_iff_toNat_le.1 h
    rcases h with (⟨_, b⟩ | ⟨_, b⟩) | ⟨_, b⟩ <;> (have := e' _ b; simp at *; omega)
  · revert hc; decide
  · revert hc; decide

theorem noNon_small (t : List Char) (h : ∀ c ∈ t, c.toNat < 256) : noNon t := by
  intro c hc; have := h c hc; omega

theorem shape_leaf (start name body stop text : List Char) (k : Nat)
    (hn : isName name) (hs : start = List.replicate k ' ' ++ '<' :: name ++ ['>'])
    (he : stop = '<' :: '/' :: name ++ ['>', '\n']) (hb : Content body (textNodes text)) :
    Shape (start ++ body ++ stop) [leaf name text] :=
  shape_line start name body stop (textNodes text) k hn hs he hb

macro "leaf_line" h:term : term => `(shape_leaf _ _ _ _ _ 8 (by decide +kernel) (by decide +kernel) (by decide +kernel) $h)

instance (name : List Char) : Decidable (isName name) := inferInstanceAs (Decidable (_ ∧ _))

theorem shape_tariff (tariff : Option Nat) (device : Nat) : Shape (renderTariff tariff device)
    ((tariff.map (fun t =>
      [leaf "Tariff".toList (decimal t), leaf "Device".toList (decimal device)])).getD []) := by
  cases tariff with
  | none => exact shape_nil
  | some t =>
    have a : Shape ("        <Tariff>".toList ++ natText t ++ "</Tariff>\n".toList)
      [leaf "Tariff".toList (decimal t)] := leaf_line (natText_content _)
    have b : Shape ("        <Device>".toList ++ natText device ++ "</Device>\n".toList)
      [leaf "Device".toList (decimal device)] := leaf_line (natText_content _)
    have := shape_append a b
    unfold renderTariff
    rw [Option.map_some, Option.getD_some]
    simpa only [List.append_assoc, List.singleton_append] using this

theorem shape_function (t : List Char) (h : noNon t) :
    Shape ("        <Function>".toList ++ xmlEncode t ++ "</Function>\n".toList)
      [leaf "Function".toList (blanked t)] := leaf_line (content_encode _ h)

theorem shape_storage (n : Nat) :
    Shape ("        <StorageNumber>".toList ++ natText n ++ "</StorageNumber>\n".toList)
      [leaf "StorageNumber".toList (decimal n)] := leaf_line (natText_content _)

theorem shape_unit (t : List Char) (h : noNon t) :
    Shape ("        <Unit>".toList ++ xmlEncode t ++ "</Unit>\n".toList)
      [leaf "Unit".toList (blanked t)] := leaf_line (content_encode _ h)

theorem shape_quantity (t : List Char) (h : noNon t) :
    Shape ("        <Quantity>".toList ++ xmlEncode t ++ "</Quantity>\n".toList)
      [leaf "Quantity".toList (blanked t)] := leaf_line (content_encode _ h)

theorem shape_value (env : XmlEnv) (he : PlainNumbers env) (v : DecodedValue XmlReal)
    (h : ∀ text, v = .str text → noNon text) :
    Shape ("        <Value>".toList ++ renderValue env v ++ "</Value>\n".toList)
      [leaf "Value".toList (valueText env v)] := by
  cases v with
  | real v => exact leaf_line (content_plain _ (fun c hc => alnum_plain c (he v c hc)))
  | str t => exact leaf_line (content_encode _ (h t rfl))

theorem shape_normalized (env : XmlEnv) (he : PlainNumbers env) (n : NormalizedRecord)
    (hf : noNon n.function) (hu : noNon n.unit) (hq : noNon n.quantity)
    (ht : ∀ text, n.value = .str text → noNon text) :
    Shape (renderNormalized env (some n)) (recordElements env n) := by
  have := shape_append (shape_append (shape_append (shape_append (shape_append
    (shape_function _ hf) (shape_storage n.storageNumber)) (shape_tariff n.tariff n.device))
    (shape_unit _ hu)) (shape_quantity _ hq)) (shape_value env he _ ht)
  unfold renderNormalized recordElements
  simp only [List.append_assoc, List.nil_append, List.cons_append] at this ⊢
  exact this

theorem attr_id (i : Nat) :
    Attributes (" id=\"".toList ++ natText i ++ "\"".toList) [("id".toList, decimal i)] := by
  have := Attributes.cons "id".toList (natText i) [] [] (by decide +kernel) ?_ .nil
  · rw [natText, toDigits_eq] at this ⊢
    exact this
  · intro c hc
    rw [natText, toDigits_eq] at hc
    have hp := decimal_plain i c hc
    have := digit_plain c hp
    refine ⟨this.1, ?_, this.2.1, this.2.2.2⟩
    rintro rfl
    revert hp; decide

theorem record_wrap (i : Nat) (body : List Char) (es : List Node) (h : Shape body es) :
    ∃ children, Shape ("    <DataRecord id=\"".toList ++ natText i ++ "\">\n".toList ++ body
        ++ "    </DataRecord>\n\n".toList)
        [.element "DataRecord".toList [("id".toList, decimal i)] children] ∧ elements children = es := by
  have h4 : Shape "    ".toList [] := shape_plain _ (by decide +kernel)
  have h0 : Shape "\n".toList [] := shape_plain _ (by decide +kernel)
  have hb := shape_append (shape_append h0 h) h4
  rw [List.nil_append, List.append_nil] at hb
  obtain ⟨children, h1, h2⟩ := shape_block (k := 4)
    (List.replicate 4 ' ' ++ '<' :: "DataRecord".toList ++ (" id=\"".toList ++ natText i ++ "\"".toList) ++ ['>'])
    "DataRecord".toList _ _ "</DataRecord>\n\n".toList "\n\n".toList _ _ (by decide +kernel) rfl (attr_id i)
    (by decide +kernel) (by decide +kernel) hb
  refine ⟨children, ?_, h2⟩
  have a : "    <DataRecord id=\"".toList = List.replicate 4 ' ' ++ '<' :: "DataRecord".toList ++ " id=\"".toList := by
    decide +kernel
  have b : "\">\n".toList = "\"".toList ++ ['>'] ++ "\n".toList := by decide +kernel
  have c : "    </DataRecord>\n\n".toList = "    ".toList ++ "</DataRecord>\n\n".toList := by decide +kernel
  rw [a, b, c]
  simp only [List.append_assoc, List.cons_append, List.nil_append] at h1 ⊢
  exact h1

theorem noNon_append (a b : List Char) : noNon (a ++ b) ↔ noNon a ∧ noNon b := by
  simp only [noNon, List.mem_append]
  exact ⟨fun h => ⟨fun c hc => h c (Or.inl hc), fun c hc => h c (Or.inr hc)⟩,
    fun h c hc => hc.elim (h.1 c) (h.2 c)⟩

/-- Encoding keeps the characters that XML does not allow. -/
theorem noNon_encode (t : List Char) : noNon (xmlEncode t) ↔ noNon t := by
  induction t with
  | nil => exact Iff.rfl
  | cons c t ih =>
    have h : noNon (c :: t) ↔ noNon [c] ∧ noNon t := noNon_append [c] t
    rw [encode_cons, noNon_append, ih, h]
    refine and_congr_left (fun _ => ?_)
    rw [encode_char]
    split
    · rename_i hc
      refine ⟨fun _ d hd => ?_, fun _ => by decide⟩
      rw [List.mem_singleton] at hd
      subst hd
      unfold isControl at hc
      omega
    · split
      · rename_i h; subst h; decide
      · split
        · rename_i h; subst h; decide
        · split
          · rename_i h; subst h; decide
          · split
            · rename_i h; subst h; decide
            · rfl

theorem noNon_mid {a b c : List Char} (h : noNon (a ++ b ++ c)) : noNon b :=
  ((noNon_append _ _).1 ((noNon_append _ _).1 h).1).2

theorem normalized_noNon (env : XmlEnv) (n : NormalizedRecord) (h : noNon (renderNormalized env (some n))) :
    noNon n.function ∧ noNon n.unit ∧ noNon n.quantity ∧ noNon (renderValue env n.value) := by
  have cut : ∀ a b : List Char, noNon (a ++ b) → noNon a := fun a b h => ((noNon_append a b).1 h).1
  have last : ∀ a b : List Char, noNon (a ++ b) → noNon b := fun a b h => ((noNon_append a b).1 h).2
  unfold renderNormalized at h
  have h1 := cut _ _ h
  have hv := last _ _ h1
  have h2 := cut _ _ (cut _ _ (cut _ _ h1))
  have hq := last _ _ h2
  have h3 := cut _ _ (cut _ _ (cut _ _ h2))
  have hu := last _ _ h3
  have h4 := cut _ _ (cut _ _ (cut _ _ (cut _ _ (cut _ _ (cut _ _ (cut _ _ h3))))))
  exact ⟨(noNon_encode _).1 (last _ _ h4), (noNon_encode _).1 hu, (noNon_encode _).1 hq, hv⟩

theorem record_shape (env : XmlEnv) (he : PlainNumbers env) (i : Nat) (r : DataRecord)
    (hr : noNon (renderVariableRecord env i r)) :
    ∃ children, Shape (renderVariableRecord env i r)
        [.element "DataRecord".toList [("id".toList, decimal i)] children] ∧
      elements children = ((normalizeRecord env r).map (recordElements env)).getD [] := by
  unfold renderVariableRecord at hr ⊢
  have hr := noNon_mid hr
  apply record_wrap
  match hn : normalizeRecord env r with
  | none => exact shape_nil
  | some n =>
    rw [hn] at hr
    obtain ⟨hf, hu, hq, hv⟩ := normalized_noNon env n hr
    refine shape_normalized env he n hf hu hq ?_
    intro text ht
    rw [ht] at hv
    exact (noNon_encode text).1 hv

theorem records_shape (env : XmlEnv) (he : PlainNumbers env) (l : List (DataRecord × Nat))
    (hl : noNon ((l.map (fun (r, i) => renderVariableRecord env i r)).flatten)) :
    ∃ es, Shape ((l.map (fun (r, i) => renderVariableRecord env i r)).flatten) es ∧
      List.Forall₂ IsRecord es (l.map (fun (r, i) =>
        (i, ((normalizeRecord env r).map (recordElements env)).getD []))) := by
  induction l with
  | nil => exact ⟨[], shape_nil, .nil⟩
  | cons x l ih =>
    have hl : noNon (renderVariableRecord env x.2 x.1 ++
        (l.map (fun (r, i) => renderVariableRecord env i r)).flatten) := hl
    rw [noNon_append] at hl
    obtain ⟨es, h1, h2⟩ := ih hl.2
    obtain ⟨children, h3, h4⟩ := record_shape env he x.2 x.1 hl.1
    refine ⟨_ :: es, ?_, .cons ⟨children, rfl, h4⟩ h2⟩
    exact shape_append h3 h1


theorem plain_noNon (t : List Char) (h : ∀ c ∈ t, plain c) : noNon t := fun c hc => (h c hc).1.2

theorem natText_noNon (n : Nat) : noNon (natText n) := by
  rw [natText, toDigits_eq]
  exact plain_noNon _ (fun c hc => digit_plain c (decimal_plain n c hc))

/-- A record without a text has no U+FFFE and U+FFFF. -/
theorem record_noNon (env : XmlEnv) (he : PlainNumbers env) (i : Nat) (r : DataRecord)
    (h : ∀ n text, normalizeRecord env r = some n → n.value = .str text → noNon text) :
    noNon (renderVariableRecord env i r) := by
  have join : ∀ a b : List Char, noNon a → noNon b → noNon (a ++ b) := fun a b ha hb => (noNon_append a b).2 ⟨ha, hb⟩
  unfold renderVariableRecord
  refine join _ _ (join _ _ (join _ _ (join _ _ (by decide +kernel) (natText_noNon i)) (by decide +kernel)) ?_)
    (by decide +kernel)
  match hn : normalizeRecord env r with
  | none => intro c hc; cases hc
  | some n =>
    obtain ⟨hf, hu, hq, -⟩ := normalize_chars env r n hn
    have ht : noNon (renderTariff n.tariff n.device) := by
      unfold renderTariff
      split
      · intro c hc; cases hc
      · exact join _ _ (join _ _ (join _ _ (join _ _ (join _ _ (by decide +kernel) (natText_noNon _)) (by decide +kernel))
          (by decide +kernel)) (natText_noNon _)) (by decide +kernel)
    have hv : noNon (renderValue env n.value) := by
      cases hx : n.value with
      | real v => exact plain_noNon _ (fun c hc => alnum_plain c (he v c hc))
      | str t => exact (noNon_encode t).2 (h n t hn hx)
    unfold renderNormalized
    exact join _ _ (join _ _ (join _ _ (join _ _ (join _ _ (join _ _ (join _ _ (join _ _ (join _ _ (join _ _
      (join _ _ (join _ _ (join _ _ (join _ _ (join _ _ (by decide +kernel)
      ((noNon_encode _).2 (noNon_small _ hf))) (by decide +kernel)) (by decide +kernel)) (natText_noNon _))
      (by decide +kernel)) ht) (by decide +kernel)) ((noNon_encode _).2 (noNon_small _ hu))) (by decide +kernel))
      (by decide +kernel)) ((noNon_encode _).2 (noNon_small _ hq))) (by decide +kernel)) (by decide +kernel)) hv)
      (by decide +kernel)

/-- Records whose texts have no U+FFFE and U+FFFF. -/
theorem records_noNon (cfg : Cfg) (env : XmlEnv) (he : PlainNumbers env) (records : Option DataRecords)
    (h : ∀ s ∈ records, ∀ r, .ok r ∈ s.collect cfg → ∀ n text, normalizeRecord env r = some n →
      n.value = .str text → noNon text) : noNon (renderRecords cfg env records) := by
  unfold renderRecords
  split
  · intro c hc; cases hc
  · rename_i s
    intro c hc
    rw [List.mem_flatten] at hc
    obtain ⟨l, hl, hc⟩ := hc
    rw [List.mem_map] at hl
    obtain ⟨⟨r, i⟩, hr, rfl⟩ := hl
    refine record_noNon env he i r (h s rfl r ?_) c hc
    have := (List.mem_zipIdx_iff_getElem?.1 hr)
    have := List.mem_of_getElem? this
    rw [List.mem_filterMap] at this
    obtain ⟨x, hx, he⟩ := this
    cases x with
    | ok y => cases he; exact hx
    | err e => cases he
    | panic => cases he

/-! ## Documents -/

theorem shape_records (cfg : Cfg) (env : XmlEnv) (he : PlainNumbers env) (records : Option DataRecords)
    (hr : noNon (renderRecords cfg env records)) :
    ∃ es, Shape (renderRecords cfg env records) es ∧
      List.Forall₂ IsRecord es (recordList cfg env records) := by
  cases records with
  | none => exact ⟨[], shape_nil, .nil⟩
  | some s => exact records_shape env he _ hr

theorem shape_id (n : Nat) : Shape ("        <Id>".toList ++ natText n ++ "</Id>\n".toList)
    [leaf "Id".toList (decimal n)] := leaf_line (natText_content _)

theorem shape_manufacturer (t : List Char) (h : ∀ c ∈ t, plain c) :
    Shape ("        <Manufacturer>".toList ++ t ++ "</Manufacturer>\n".toList)
      [leaf "Manufacturer".toList t] := leaf_line (content_plain _ h)

theorem shape_version (n : Nat) : Shape ("        <Version>".toList ++ natText n ++ "</Version>\n".toList)
    [leaf "Version".toList (decimal n)] := leaf_line (natText_content _)

theorem shape_product (t : List Char) (h : noNon t) :
    Shape ("        <ProductName>".toList ++ xmlEncode t ++ "</ProductName>\n".toList)
      [leaf "ProductName".toList (blanked t)] := leaf_line (content_encode _ h)

theorem shape_medium (t : List Char) (h : noNon t) :
    Shape ("        <Medium>".toList ++ xmlEncode t ++ "</Medium>\n".toList)
      [leaf "Medium".toList (blanked t)] := leaf_line (content_encode _ h)

theorem shape_access (n : Nat) :
    Shape ("        <AccessNumber>".toList ++ natText n ++ "</AccessNumber>\n".toList)
      [leaf "AccessNumber".toList (decimal n)] := leaf_line (natText_content _)

theorem shape_status (b : UInt8) :
    Shape ("        <Status>".toList ++ hex2 b ++ "</Status>\n".toList)
      [leaf "Status".toList (hex2 b)] := leaf_line (hex2_content b)

theorem shape_signature (s : UInt16) :
    Shape ("        <Signature>".toList ++ signatureText s ++ "</Signature>\n".toList)
      [leaf "Signature".toList (signatureText s)] := by
  refine leaf_line (content_plain _ ?_)
  intro c hc
  unfold signatureText at hc
  rw [List.mem_append] at hc
  rcases hc with hc | hc <;> exact (hex2_plain _ c hc).1

theorem medium_small : ∀ b : UInt8, (∀ c ∈ mediumLookup b, c.toNat < 256) ∧
    blanked (mediumLookup b) = mediumLookup b := by decide +kernel

theorem blanked_printable (t : List Char) (h : ∀ c ∈ t, 32 ≤ c.toNat ∧ c.toNat < 127) : blanked t = t := by
  unfold blanked
  refine (List.map_congr_left fun c hc => ?_).trans (List.map_id t)
  have := h c hc
  rw [if_neg (by unfold isControl; omega), id]

theorem shape_identity (id : Nat) (manufacturer : List Char)
    (hm : ∀ c ∈ manufacturer, plain c) (version medium : UInt8) :
    ∃ body, renderIdentity id manufacturer version medium =
        "    <SlaveInformation>\n".toList ++ body ∧
      Shape body (identityElements id manufacturer version medium) := by
  have hmed := shape_medium (mediumLookup medium) (noNon_small _ (medium_small medium).1)
  rw [(medium_small medium).2] at hmed
  have hprod := shape_product (productName manufacturer version medium id)
    (noNon_small _ fun c hc => by have := product_chars _ _ _ _ c hc; omega)
  rw [blanked_printable _ (product_chars _ _ _ _), productName_eq] at hprod
  have := shape_append (shape_append (shape_append (shape_append (shape_id id)
    (shape_manufacturer manufacturer hm)) (shape_version version.toNat))
    hprod) hmed
  refine ⟨_, ?_, this⟩
  unfold renderIdentity
  rw [productName_eq]
  simp only [List.append_assoc]

/-- Wrapping the parts of a document. -/
theorem report (body recs : List Char) (info : List Node) (l : List (Nat × List Node))
    (hb : Shape body info) (hr : ∃ es, Shape recs es ∧ List.Forall₂ IsRecord es l) :
    IsReport (processingInstruction ++ "<MBusData>\n\n".toList ++ "    <SlaveInformation>\n".toList
      ++ body ++ "    </SlaveInformation>\n\n".toList ++ recs ++ "</MBusData>\n".toList) info l := by
  obtain ⟨es, hes, hf⟩ := hr
  have h4 : Shape "    ".toList [] := shape_plain _ (by decide +kernel)
  have h0 : Shape "\n".toList [] := shape_plain _ (by decide +kernel)
  have h00 : Shape "\n\n".toList [] := shape_plain _ (by decide +kernel)
  have hb' := shape_append (shape_append h0 hb) h4
  rw [List.nil_append, List.append_nil] at hb'
  obtain ⟨infoChildren, h1, h2⟩ := shape_block (k := 4)
    (List.replicate 4 ' ' ++ '<' :: "SlaveInformation".toList ++ [] ++ ['>'])
    "SlaveInformation".toList [] _ "</SlaveInformation>\n\n".toList "\n\n".toList [] _
    (by decide +kernel) rfl .nil (by decide +kernel) (by decide +kernel) hb'
  have hall := shape_append h00 (shape_append h1 hes)
  obtain ⟨children, hc, hce⟩ := hall
  refine ⟨children, infoChildren, es, ?_, by simpa using hce, h2, hf⟩
  have hroot := content_append (content_element "MBusData".toList _ children (by decide +kernel) hc)
    (Content.char '\n' [] [] (by decide) (by decide) (by decide) (by decide) .nil)
  refine ⟨_, ?_, hroot⟩
  unfold processingInstruction
  have a : "<MBusData>\n\n".toList = '<' :: "MBusData".toList ++ '>' :: "\n\n".toList := by decide +kernel
  have b : "    <SlaveInformation>\n".toList =
    List.replicate 4 ' ' ++ '<' :: "SlaveInformation".toList ++ ['>'] ++ "\n".toList := by decide +kernel
  have c : "    </SlaveInformation>\n\n".toList = "    ".toList ++ "</SlaveInformation>\n\n".toList := by
    decide +kernel
  have d : "</MBusData>\n".toList = '<' :: '/' :: "MBusData".toList ++ ['>'] ++ ['\n'] := by decide +kernel
  rw [a, b, c, d]
  simp only [List.append_assoc, List.cons_append, List.nil_append]

theorem shape_optional_access (a : Option UInt8) :
    Shape (optionalLine "        <AccessNumber>" "</AccessNumber>\n" (a.map (fun a => natText a.toNat)))
      (optionalLeaf "AccessNumber".toList (a.map (fun a => decimal a.toNat))) := by
  cases a with
  | none => exact shape_nil
  | some a => exact shape_access a.toNat

theorem shape_optional_status (a : Option UInt8) :
    Shape (optionalLine "        <Status>" "</Status>\n" (a.map hex2))
      (optionalLeaf "Status".toList (a.map hex2)) := by
  cases a with
  | none => exact shape_nil
  | some a => exact shape_status a

theorem shape_optional_signature (a : Option UInt16) :
    Shape (optionalLine "        <Signature>" "</Signature>\n" (a.map signatureText))
      (optionalLeaf "Signature".toList (a.map signatureText)) := by
  cases a with
  | none => exact shape_nil
  | some a => exact shape_signature a

/-- `c` is a possible manufacturer code: three capital letters. -/
def isCode (c : ManufacturerCode) : Prop := ∃ i j k, IsLetter i ∧ IsLetter j ∧ IsLetter k ∧ c = letters i j k

theorem manufacturer_plain (c : ManufacturerCode) (h : isCode c) : ∀ x ∈ manufacturerText c, plain x := by
  obtain ⟨i, j, k, hi, hj, hk, rfl⟩ := h
  have key : ∀ i < 27, 1 ≤ i → plain (Char.ofNat (UInt8.ofNat (64 + i)).toNat) := by decide +kernel
  unfold IsLetter at *
  intro x hx
  simp only [manufacturerText, letters, List.map_cons, List.map_nil, List.mem_cons, List.not_mem_nil,
    or_false] at hx
  rcases hx with rfl | rfl | rfl
  · exact key i (by omega) hi.1
  · exact key j (by omega) hj.1
  · exact key k (by omega) hk.1

/-- The manufacturer shown for a long header: nothing if the code is not one of three letters. -/
theorem wireless_report (cfg : Cfg) (env : XmlEnv) (he : PlainNumbers env) (identity : ManufacturerId)
    (hm : isCode identity.manufacturerCode) (access status : Option UInt8) (signature : Option UInt16)
    (records : Option DataRecords)
    (hr : noNon (renderRecords cfg env records)) :
    IsReport (renderWirelessVariable cfg env identity access status signature records)
      (identityElements identity.identificationNumber (manufacturerText identity.manufacturerCode)
          identity.version identity.deviceType.toByte
        ++ optionalLeaf "AccessNumber".toList (access.map (fun a => decimal a.toNat))
        ++ optionalLeaf "Status".toList (status.map hex2)
        ++ optionalLeaf "Signature".toList (signature.map signatureText))
      (recordList cfg env records) := by
  obtain ⟨body, h1, h2⟩ := shape_identity identity.identificationNumber
    (manufacturerText identity.manufacturerCode) (manufacturer_plain _ hm) identity.version
    identity.deviceType.toByte
  have h3 := shape_append (shape_append (shape_append h2 (shape_optional_access access))
    (shape_optional_status status)) (shape_optional_signature signature)
  have := report _ _ _ _ h3 (shape_records cfg env he records hr)
  unfold renderWirelessVariable
  rw [h1]
  simp only [List.append_assoc] at this ⊢
  exact this

theorem variable_report (cfg : Cfg) (env : XmlEnv) (he : PlainNumbers env) (header : LongTplHeader)
    (code : List Char)
    (hc : code = (match header.manufacturer with | .ok c => manufacturerText c | _ => []))
    (hm : ∀ c, header.manufacturer = .ok c → isCode c) (records : Option DataRecords)
    (hr : noNon (renderRecords cfg env records)) :
    IsReport (renderVariable cfg env header records)
      (identityElements header.identificationNumber code header.version header.deviceType.toByte
        ++ [leaf "AccessNumber".toList (decimal header.short.accessNumber.toNat),
            leaf "Status".toList (hex2 header.short.status),
            leaf "Signature".toList (signatureText header.short.configurationField.raw)])
      (recordList cfg env records) := by
  have hp : ∀ c ∈ code, plain c := by
    rw [hc]
    cases hmn : header.manufacturer with
    | ok c => exact manufacturer_plain c (hm c hmn)
    | err e => simp
    | panic => simp
  obtain ⟨body, h1, h2⟩ := shape_identity header.identificationNumber code hp header.version
    header.deviceType.toByte
  have h3 := shape_append h2 (shape_append (shape_append (shape_access header.short.accessNumber.toNat)
    (shape_status header.short.status)) (shape_signature header.short.configurationField.raw))
  have := report _ _ _ _ h3 (shape_records cfg env he records hr)
  have e : renderVariable cfg env header records = processingInstruction ++ "<MBusData>\n\n".toList
    ++ (renderIdentity header.identificationNumber code header.version header.deviceType.toByte
  ++ "        <AccessNumber>".toList ++ natText header.short.accessNumber.toNat
  ++ "</AccessNumber>\n".toList
  ++ "        <Status>".toList ++ hex2 header.short.status ++ "</Status>\n".toList
  ++ "        <Signature>".toList ++ signatureText header.short.configurationField.raw
  ++ "</Signature>\n".toList
  ++ "    </SlaveInformation>\n\n".toList)
    ++ renderRecords cfg env records ++ "</MBusData>\n".toList := by
    rw [hc]; rfl
  rw [e, h1]
  simp only [List.append_assoc, List.cons_append, List.nil_append] at this ⊢
  exact this


theorem fixedUnit_small : ∀ b : UInt8, (∀ c ∈ (fixedUnit b).toList, c.toNat < 256) ∧
    blanked (fixedUnit b).toList = (fixedUnit b).toList := by decide +kernel

theorem fixedMedium_small (a b : UInt8) : (∀ c ∈ (fixedMedium a b).toList, c.toNat < 256) ∧
    blanked (fixedMedium a b).toList = (fixedMedium a b).toList := by
  have key : ∀ s ∈ ["Other", "Oil", "Electricity", "Gas", "Heat", "Steam", "Hot Water", "Water", "H.C.A.",
      "Reserved", "Gas Mode 2", "Heat Mode 2", "Hot Water Mode 2", "Water Mode 2", "H.C.A. Mode 2",
      "unknown"], (∀ c ∈ s.toList, c.toNat < 256) ∧ blanked s.toList = s.toList := by decide +kernel
  apply key
  unfold fixedMedium
  split <;> simp

theorem shape_plain_function (t : List Char) (h : ∀ c ∈ t, plain c) :
    Shape ("        <Function>".toList ++ t ++ "</Function>\n".toList)
      [leaf "Function".toList t] := leaf_line (content_plain _ h)

theorem shape_counter_value (n : Nat) :
    Shape ("        <Value>".toList ++ natText n ++ "</Value>\n".toList)
      [leaf "Value".toList (decimal n)] := leaf_line (natText_content _)

theorem counter_shape (function : List Char) (hf : ∀ c ∈ function, plain c) (i : Nat) (unit : UInt8)
    (counter : Nat) : ∃ x, Shape (renderFixedCounter function i unit counter) [x] ∧
      IsRecord x (i, [leaf "Function".toList function, leaf "Unit".toList (fixedUnit unit).toList,
        leaf "Value".toList (decimal counter)]) := by
  have hu := shape_unit (fixedUnit unit).toList (noNon_small _ (fixedUnit_small unit).1)
  rw [(fixedUnit_small unit).2] at hu
  have hb := shape_append (shape_append (shape_plain_function function hf) hu) (shape_counter_value counter)
  obtain ⟨children, h1, h2⟩ := record_wrap i _ _ hb
  refine ⟨_, ?_, children, rfl, h2⟩
  unfold renderFixedCounter
  simp only [List.append_assoc] at h1 ⊢
  exact h1

theorem fixed_report (id : Nat) (accessNumber status : UInt8) (u : UInt16) (c1 c2 : Nat) :
    IsReport (renderFixed id accessNumber status u c1 c2)
      [leaf "Id".toList (decimal id),
       leaf "Medium".toList (fixedMedium (u >>> 8).toUInt8 (u &&& 0xFF).toUInt8).toList,
       leaf "AccessNumber".toList (decimal accessNumber.toNat), leaf "Status".toList (hex2 status)]
      ([((u >>> 8).toUInt8, c1), ((u &&& 0xFF).toUInt8, c2)].zipIdx.map (fun ((unit, c), i) =>
        (i, [leaf "Function".toList
              (if status &&& 0x40 != 0 then "Stored value" else "Actual value").toList,
             leaf "Unit".toList (fixedUnit unit).toList, leaf "Value".toList (decimal c)]))) := by
  have hf : ∀ c ∈ (if status &&& 0x40 != 0 then "Stored value" else "Actual value").toList, plain c := by
    split <;> decide +kernel
  obtain ⟨x1, s1, r1⟩ := counter_shape _ hf 0 (u >>> 8).toUInt8 c1
  obtain ⟨x2, s2, r2⟩ := counter_shape _ hf 1 (u &&& 0xFF).toUInt8 c2
  have hmed := shape_medium _ (noNon_small _ (fixedMedium_small (u >>> 8).toUInt8 (u &&& 0xFF).toUInt8).1)
  rw [(fixedMedium_small _ _).2] at hmed
  have hb := shape_append (shape_append (shape_append (shape_id id) hmed) (shape_access accessNumber.toNat))
    (shape_status status)
  have := report _ _ _ _ hb ⟨_, shape_append s1 s2, .cons r1 (.cons r2 .nil)⟩
  unfold renderFixed
  simp only [List.append_assoc] at this ⊢
  exact this

/-! ## Manufacturer codes in parsed frames -/

theorem block_code (data : List UInt8) (blk : UserDataBlock) (h : Block data blk) :
    ∀ ell header block, blk = .long ell header block → ∀ c, header.manufacturer = .ok c → isCode c := by
  cases h with
  | long r i0 i1 i2 i3 m0 m1 version device acc st c0 c1 block hi =>
    rintro ell header b heq c hc
    injection heq with _ h2 _
    subst h2
    obtain ⟨i, j, k, hi, hj, hk, _, rfl⟩ := (C07_manufacturer_from_id _ _).1 hc
    exact ⟨i, j, k, hi, hj, hk, rfl⟩
  | ellI cc acc inner blk blk' _ hw =>
    rintro ell header b rfl
    cases blk <;> simp [withEll] at hw
  | _ => rintro ell header b heq; simp at heq

theorem wireless_code (data : List UInt8) (f : WirelessFrame) (h : WirelessFrame.tryFrom data = .ok f) :
    isCode f.manufacturerId.manufacturerCode := by
  unfold WirelessFrame.tryFrom at h
  simp only [Res.bind_eq_ok, Res.ofOption_eq_ok] at h
  obtain ⟨_, _, _, _, h⟩ := h
  split at h
  · simp at h
  · simp only [Res.bind_eq_ok] at h
    obtain ⟨id, hid, h⟩ := h
    split at h
    · split at h
      · simp at h
      · injection h with h
        subst h
        unfold ManufacturerId.tryFrom at hid
        simp only [Res.bind_eq_ok, Res.ofOption_eq_ok] at hid
        obtain ⟨m0, _, m1, _, code, hcode, _, _, _, _, _, _, _, _, _, _, _, _, _, _, _, _, hid⟩ := hid
        have hcode : ManufacturerCode.fromId (u16le m0 m1) = .ok code := by
          cases hx : ManufacturerCode.fromId (u16le m0 m1) with
          | ok c => rw [hx] at hcode; injection hcode with e; rw [e]
          | err e => rw [hx] at hcode; simp [Res.mapErr] at hcode
          | panic => rw [hx] at hcode; simp [Res.mapErr] at hcode
        injection hid with hid
        subst hid
        obtain ⟨i, j, k, hi, hj, hk, _, rfl⟩ := (C07_manufacturer_from_id _ _).1 hcode
        exact ⟨i, j, k, hi, hj, hk, rfl⟩
    · simp at h

end MBus
