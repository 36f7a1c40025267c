import Verif.Model.Xml
import Verif.Spec.Xml
import Verif.Lemmas.Hex
/-! Helper lemmas about the XML text. -/
namespace MBus
open Spec Spec.Xml Xml

/-! ## Character encoding -/

/-- What one character is encoded as. -/
theorem encode_char (c : Char) : xmlEncode [c] =
    if isControl c then [' ']
    else if c = '&' then ['&', 'a', 'm', 'p', ';']
    else if c = '<' then ['&', 'l', 't', ';']
    else if c = '>' then ['&', 'g', 't', ';']
    else if c = '"' then ['&', 'q', 'u', 'o', 't', ';']
    else [c] := by
  by_cases h : c.toNat < 32 ∨ c.toNat = 127 <;> simp [xmlEncode, isControl, isAsciiControl, h]

theorem encode_append (a b : List Char) : xmlEncode (a ++ b) = xmlEncode a ++ xmlEncode b := by
  simp [xmlEncode]

theorem encode_cons (c : Char) (t : List Char) : xmlEncode (c :: t) = xmlEncode [c] ++ xmlEncode t :=
  encode_append [c] t

theorem unescape_plain (c : Char) (t : List Char) (h1 : c ≠ '&') (h2 : c ≠ '<') (h3 : c ≠ '>')
    (h4 : c ≠ '"') : unescape (c :: t) = (unescape t).map (c :: ·) := by
  rw [unescape.eq_def]
  split <;> simp_all

theorem unescape_encode (t : List Char) : unescape (xmlEncode t) = some (blanked t) := by
  induction t with
  | nil => rfl
  | cons c t ih =>
    rw [encode_cons, encode_char]
    have hb : blanked (c :: t) = (if isControl c then ' ' else c) :: blanked t := rfl
    rw [hb]
    split
    · rw [List.singleton_append, unescape_plain _ _ (by decide) (by decide) (by decide) (by decide), ih]
      rfl
    · split
      · rename_i h; subst h; simp [unescape, ih]
      · split
        · rename_i h; subst h; simp [unescape, ih]
        · split
          · rename_i h; subst h; simp [unescape, ih]
          · split
            · rename_i h; subst h; simp [unescape, ih]
            · rw [List.singleton_append, unescape_plain _ _ ‹_› ‹_› ‹_› ‹_›, ih]; rfl

theorem encode_safe (t : List Char) (c : Char) (h : c ∈ xmlEncode t) :
    c ≠ '<' ∧ c ≠ '>' ∧ c ≠ '"' ∧ ¬ isControl c := by
  induction t with
  | nil => simp [xmlEncode] at h
  | cons d t ih =>
    rw [encode_cons, List.mem_append] at h
    rcases h with h | h
    · rw [encode_char] at h
      split at h
      · rw [List.mem_singleton] at h; subst h; decide
      · split at h
        · clear ih; revert c; decide
        · split at h
          · clear ih; revert c; decide
          · split at h
            · clear ih; revert c; decide
            · split at h
              · clear ih; revert c; decide
              · rw [List.mem_singleton] at h; subst h
                refine ⟨?_, ?_, ?_, ?_⟩ <;> assumption
    · exact ih h

/-! ## Content -/

theorem content_append {a b : List Char} {n m : List Node} (ha : Content a n) (hb : Content b m) :
    Content (a ++ b) (n ++ m) := by
  induction ha with
  | nil => exact hb
  | char c text nodes h1 h2 h3 h4 _ ih => exact .char c _ _ h1 h2 h3 h4 ih
  | entity name c text nodes h1 _ ih =>
    have := Content.entity name c _ _ h1 ih
    simpa using this
  | element name attributes body text attrs children nodes h1 h2 h3 _ _ ih =>
    have := Content.element name attributes body _ attrs children _ h1 h2 h3 ih
    simpa using this

/-- A character that can stand in text as it is. -/
def plain (c : Char) : Prop := xmlChar c ∧ c ≠ '<' ∧ c ≠ '>' ∧ c ≠ '&'

instance (c : Char) : Decidable (plain c) := inferInstanceAs (Decidable (_ ∧ _))

theorem content_plain (t : List Char) (h : ∀ c ∈ t, plain c) : Content t (textNodes t) := by
  induction t with
  | nil => exact .nil
  | cons c t ih =>
    obtain ⟨h1, h2, h3, h4⟩ := h c (by simp)
    exact .char c _ _ h1 h2 h3 h4 (ih (fun d hd => h d (by simp [hd])))

theorem content_encode (t : List Char) (h : noNon t) :
    Content (xmlEncode t) (textNodes (blanked t)) := by
  induction t with
  | nil => exact .nil
  | cons c t ih =>
    have ih := ih (fun d hd => h d (by simp [hd]))
    obtain ⟨hf, hg⟩ := h c (by simp)
    rw [encode_cons, encode_char]
    have hb : textNodes (blanked (c :: t)) =
      .char (if isControl c then ' ' else c) :: textNodes (blanked t) := rfl
    rw [hb]
    split
    · exact .char _ _ _ (by decide) (by decide) (by decide) (by decide) ih
    · rename_i hc
      split
      · rename_i h; subst h; exact .entity ['a', 'm', 'p'] '&' _ _ (by decide) ih
      · split
        · rename_i h; subst h; exact .entity ['l', 't'] '<' _ _ (by decide) ih
        · split
          · rename_i h; subst h; exact .entity ['g', 't'] '>' _ _ (by decide) ih
          · split
            · rename_i h; subst h; exact .entity ['q', 'u', 'o', 't'] '"' _ _ (by decide) ih
            · refine .char _ _ _ ⟨Or.inr (Or.inr (Or.inr ?_)), hf, hg⟩ ‹_› ‹_› ‹_› ih
              unfold isControl at hc; omega

theorem elements_append (a b : List Node) : elements (a ++ b) = elements a ++ elements b := by
  induction a with
  | nil => rfl
  | cons x a ih => cases x <;> simp [elements, ih]

theorem elements_text (t : List Char) : elements (textNodes t) = [] := by
  induction t with
  | nil => rfl
  | cons c t ih => simpa [textNodes, elements] using ih

/-- Text that denotes the elements `es`, with characters around and between them. -/
def Shape (text : List Char) (es : List Node) : Prop := ∃ nodes, Content text nodes ∧ elements nodes = es

theorem shape_append {a b : List Char} {x y : List Node} (ha : Shape a x) (hb : Shape b y) :
    Shape (a ++ b) (x ++ y) := by
  obtain ⟨n, hn, rfl⟩ := ha
  obtain ⟨m, hm, rfl⟩ := hb
  exact ⟨n ++ m, content_append hn hm, elements_append n m⟩

theorem shape_nil : Shape [] [] := ⟨[], .nil, rfl⟩

theorem shape_plain (t : List Char) (h : ∀ c ∈ t, plain c) : Shape t [] :=
  ⟨_, content_plain t h, elements_text t⟩

theorem content_element (name body : List Char) (children : List Node) (hn : isName name)
    (hb : Content body children) :
    Content ('<' :: name ++ '>' :: body ++ '<' :: '/' :: name ++ ['>']) [.element name [] children] := by
  have := Content.element name [] body [] [] children [] hn .nil hb .nil
  simpa using this

/-- One line with an element. -/
theorem shape_line (start name body stop : List Char) (children : List Node) (k : Nat)
    (hn : isName name) (hs : start = List.replicate k ' ' ++ '<' :: name ++ ['>'])
    (he : stop = '<' :: '/' :: name ++ ['>', '\n']) (hb : Content body children) :
    Shape (start ++ body ++ stop) [.element name [] children] := by
  have h1 : Shape (List.replicate k ' ') [] := by
    apply shape_plain
    intro c hc
    rw [(List.mem_replicate.1 hc).2]; decide
  have h2 : Shape ('<' :: name ++ '>' :: body ++ '<' :: '/' :: name ++ ['>'])
      [.element name [] children] := ⟨_, content_element name body children hn hb, rfl⟩
  have h3 : Shape ['\n'] [] := shape_plain _ (by decide)
  have := shape_append (shape_append h1 h2) h3
  subst hs he
  simpa using this

/-- An element whose tags have attributes or stand on their own lines. -/
theorem shape_block (start name attributes body stop tail : List Char)
    (attrs : List (List Char × List Char)) (es : List Node) (k : Nat)
    (hn : isName name) (hs : start = List.replicate k ' ' ++ '<' :: name ++ attributes ++ ['>'])
    (ha : Attributes attributes attrs)
    (he : stop = '<' :: '/' :: name ++ '>' :: tail) (ht : ∀ c ∈ tail, plain c) (hb : Shape body es) :
    ∃ children, Shape (start ++ body ++ stop) [.element name attrs children] ∧ elements children = es := by
  obtain ⟨children, hc, hes⟩ := hb
  refine ⟨children, ?_, hes⟩
  have h1 : Shape (List.replicate k ' ') [] := by
    apply shape_plain
    intro c hc
    rw [(List.mem_replicate.1 hc).2]; decide
  have h2 : Shape ('<' :: name ++ attributes ++ '>' :: body ++ '<' :: '/' :: name ++ ['>'])
      [.element name attrs children] := by
    have := Content.element name attributes body [] attrs children [] hn ha hc .nil
    exact ⟨_, this, rfl⟩
  have h3 : Shape tail [] := shape_plain _ ht
  have := shape_append (shape_append h1 h2) h3
  subst hs he
  simpa using this

/-- Every character of a well-formed text is an XML character. -/
theorem content_chars {t : List Char} {n : List Node} (h : Content t n) : ∀ c ∈ t, xmlChar c := by
  have hname : ∀ name : List Char, isName name → ∀ c ∈ name, xmlChar c := by
    intro name hn c hc
    have := hn.2 c hc
    have h2 : c.toNat < 128 ∧ 32 ≤ c.toNat := by
      simp only [Char.isAlpha, Char.isUpper, Char.isLower, Bool.or_eq_true, Bool.and_eq_true, decide_eq_true_eq] at this
      have e : ∀ u : UInt32, c.val ≥ u → c.toNat ≥ u.toNat := fun u h => UInt32.le_iff_toNat_le.1 h
      have e' : ∀ u : UInt32, c.val ≤ u → c.toNat ≤ u.toNat := fun u h => UInt32.le_iff_toNat_le.1 h
      rcases this with ⟨a, b⟩ | ⟨a, b⟩
      · have := e _ a; have := e' _ b; simp at *; omega
      · have := e _ a; have := e' _ b; simp at *; omega
    exact ⟨Or.inr (Or.inr (Or.inr h2.2)), by omega, by omega⟩
  have hattr : ∀ (t : List Char) (a : List (List Char × List Char)), Attributes t a →
      ∀ c ∈ t, xmlChar c := by
    intro t a ha
    induction ha with
    | nil => simp
    | cons name value text rest hn hv _ ih =>
      intro c hc
      simp only [List.cons_append, List.mem_cons, List.mem_append] at hc
      rcases hc with rfl | (hc | rfl | rfl | hc) | rfl | hc
      · decide
      · exact hname name hn c hc
      · decide
      · decide
      · exact (hv c hc).1
      · decide
      · exact ih c hc
  induction h with
  | nil => simp
  | char c text nodes h1 _ _ _ _ ih =>
    intro d hd
    rcases List.mem_cons.1 hd with rfl | hd
    · exact h1
    · exact ih d hd
  | entity name c text nodes h1 _ ih =>
    have hall : ∀ e ∈ entities, ∀ d ∈ e.1, xmlChar d := by decide
    intro d hd
    simp only [List.cons_append, List.mem_cons, List.mem_append] at hd
    rcases hd with rfl | hd | rfl | hd
    · decide
    · exact hall _ h1 d hd
    · decide
    · exact ih d hd
  | element name attributes body text attrs children nodes h1 h2 _ _ ih1 ih2 =>
    intro d hd
    simp only [List.cons_append, List.mem_cons, List.mem_append] at hd
    rcases hd with rfl | (((hd | hd) | rfl | hd) | rfl | rfl | hd) | rfl | hd
    all_goals first
      | decide
      | exact hname name h1 d hd
      | exact hattr _ _ h2 d hd
      | exact ih1 d hd
      | exact ih2 d hd


/-! ## Characters of the texts in a record -/

theorem table_chars : ∀ row ∈ vifTable,
    (∀ c ∈ row.2.2.1.toList, c.toNat < 256) ∧ (∀ c ∈ row.2.2.2.toList, c.toNat < 256) := by
  decide +kernel

theorem lookup_mem {α β : Type} [BEq α] (l : List (α × β)) (a : α) (b : β) (h : l.lookup a = some b) :
    ∃ a', (a', b) ∈ l := by
  induction l with
  | nil => simp at h
  | cons x l ih =>
    obtain ⟨x1, x2⟩ := x
    rw [List.lookup_cons] at h
    split at h
    · cases h; exact ⟨x1, by simp⟩
    · obtain ⟨a', ha⟩ := ih h; exact ⟨a', by simp [ha]⟩

theorem unit_chars (code : Nat) (u q : List Char) (f : Factor)
    (h : vifUnitNormalize code = some (u, f, q)) :
    (∀ c ∈ u, c.toNat < 256) ∧ (∀ c ∈ q, c.toNat < 256) := by
  unfold vifUnitNormalize at h
  rw [Option.map_eq_some_iff] at h
  obtain ⟨⟨f', u', q'⟩, h1, h2⟩ := h
  obtain ⟨a, ha⟩ := lookup_mem _ _ _ h1
  have := table_chars _ ha
  simp only [Prod.mk.injEq] at h2
  obtain ⟨rfl, rfl, rfl⟩ := h2
  exact this

theorem ofNat_byte (b : UInt8) : (Char.ofNat b.toNat).toNat = b.toNat := by
  have : ∀ b : UInt8, (Char.ofNat b.toNat).toNat = b.toNat := by decide +kernel
  exact this b

theorem fixedDigits_plain (w n : Nat) : ∀ c ∈ fixedDigits w n, '0' ≤ c ∧ c ≤ '9' := by
  induction w generalizing n with
  | zero => simp [fixedDigits]
  | succ w ih =>
    intro c hc
    rw [fixedDigits, List.mem_append, List.mem_singleton] at hc
    rcases hc with hc | rfl
    · exact ih _ c hc
    · have : ∀ d < 10, '0' ≤ Char.ofNat ('0'.toNat + d) ∧ Char.ofNat ('0'.toNat + d) ≤ '9' := by decide
      exact this _ (Nat.mod_lt _ (by omega))

theorem decimal_plain (n : Nat) : ∀ c ∈ decimal n, '0' ≤ c ∧ c ≤ '9' := by
  have key : ∀ d < 10, '0' ≤ Char.ofNat ('0'.toNat + d) ∧ Char.ofNat ('0'.toNat + d) ≤ '9' := by decide
  induction n using Nat.strongRecOn with
  | _ n ih =>
    rw [decimal]
    split
    · intro c hc
      rw [List.mem_singleton] at hc; subst hc
      exact key n ‹_›
    · intro c hc
      rw [List.mem_append, List.mem_singleton] at hc
      rcases hc with hc | rfl
      · exact ih (n / 10) (by omega) c hc
      · exact key _ (Nat.mod_lt _ (by omega))

theorem padNat_digits (w n : Nat) : ∀ c ∈ padNat w n, '0' ≤ c ∧ c ≤ '9' := by
  unfold padNat
  rw [toDigits_eq]
  intro c hc
  simp only [List.mem_append, List.mem_replicate] at hc
  rcases hc with ⟨_, rfl⟩ | hc
  · decide
  · exact decimal_plain n c hc

theorem hex2_plain : ∀ b : UInt8, ∀ c ∈ hex2 b, plain c ∧ c.toNat < 256 := by decide +kernel

theorem digit_small (c : Char) (h : '0' ≤ c ∧ c ≤ '9') : c.toNat < 256 := by
  rw [char_le_iff, char_le_iff] at h
  have : ('9' : Char).toNat = 57 := rfl
  omega

theorem binDecode_small (bytes : List UInt8) : ∀ c ∈ binDecode bytes, c.toNat < 256 := by
  unfold binDecode
  induction bytes with
  | nil => simp
  | cons b t ih =>
    cases t with
    | nil => intro c hc; simp at hc; exact (hex2_plain b c hc).2
    | cons b' t =>
      intro c hc
      simp only [List.map_cons, List.intercalate_cons_cons, List.mem_append, List.mem_singleton] at hc ih
      rcases hc with (hc | rfl) | hc
      · exact (hex2_plain b c hc).2
      · decide
      · exact ih c hc

theorem dateG_small (b0 b1 : UInt8) : ∀ c ∈ dateGDecode b0 b1, c.toNat < 256 := by
  intro c hc
  simp only [dateGDecode, List.mem_append, List.mem_singleton] at hc
  rcases hc with (((hc | rfl) | hc) | rfl) | hc
  all_goals first | decide | exact digit_small c (padNat_digits _ _ c hc)

theorem dateF_small (b0 b1 b2 b3 : UInt8) : ∀ c ∈ dateFDecode b0 b1 b2 b3, c.toNat < 256 := by
  intro c hc
  unfold dateFDecode at hc
  split at hc
  · revert c; decide
  · simp only [List.mem_append, List.mem_singleton, List.mem_cons, List.not_mem_nil, or_false] at hc
    rcases hc with ((((((((hc | rfl) | hc) | rfl) | hc) | rfl) | hc) | rfl) | hc) | rfl | rfl | rfl | rfl
    all_goals first | decide | exact digit_small c (padNat_digits _ _ c hc)

theorem dateI_small (b0 b1 b2 b3 b4 : UInt8) : ∀ c ∈ dateIDecode b0 b1 b2 b3 b4, c.toNat < 256 := by
  intro c hc
  unfold dateIDecode at hc
  split at hc
  · revert c; decide
  · simp only [List.mem_append, List.mem_singleton] at hc
    rcases hc with (((((((((((hc | rfl) | hc) | rfl) | hc) | rfl) | hc) | rfl) | hc) | rfl) | hc) | rfl)
    all_goals first | decide | exact digit_small c (padNat_digits _ _ c hc)

/-- The texts of a decoded value. -/
theorem decoded_chars (env : XmlEnv) (dif vif : UInt8) (vife : Option UInt8) (data : List UInt8)
    (text : List Char) (h : variableValueDecode env dif vif vife data = some (.str text)) :
    (∀ c ∈ text, c.toNat < 256) ∨ (dif &&& 0x0F = 13 ∧ ∃ b, text = env.lossy b) := by
  have key : text = [] ∨ (∃ a b, text = dateGDecode a b) ∨ (∃ a b c d, text = dateFDecode a b c d) ∨
      (∃ a b c d e, text = dateIDecode a b c d e) ∨ (dif &&& 0x0F = 13 ∧ ∃ b, text = env.lossy b) ∨
      ∃ b, text = binDecode b := by
    have hn : ∀ d : UInt8, d &&& 0x0F ∈ [0, 1, 2, 3, 4, 5, 6, 7, 8, 9, 10, 11, 12, 13, 14, (15 : UInt8)] := by
      decide +kernel
    have hn := hn dif
    have hmap : ∀ (x : Option (List UInt8)) (f : List UInt8 → F64),
        x.map (fun b => DecodedValue.real (f b)) = some (.str text) → False := by
      intro x f hx; cases x <;> simp at hx
    simp only [List.mem_cons, List.not_mem_nil, or_false] at hn
    unfold variableValueDecode at h
    rcases hn with hn | hn | hn | hn | hn | hn | hn | hn | hn | hn | hn | hn | hn | hn | hn | hn <;>
      rw [hn] at h <;> simp (config := { decide := true }) only [if_true, if_false] at h
    all_goals first
      | exact absurd (hmap _ _ h) id
      | skip
    · left; injection h with h; injection h with h; exact h.symm
    · split at h
      · split at h
        · injection h with h; injection h with h; exact Or.inr (Or.inl ⟨_, _, h.symm⟩)
        · simp at h
      · exact absurd (hmap _ _ h) id
    · split at h
      · split at h
        · injection h with h; injection h with h
          exact Or.inr (Or.inr (Or.inl ⟨_, _, _, _, h.symm⟩))
        · simp at h
      · exact absurd (hmap _ _ h) id
    · split at h <;> simp at h
    · split at h
      · split at h
        · injection h with h; injection h with h
          exact Or.inr (Or.inr (Or.inr (Or.inl ⟨_, _, _, _, _, h.symm⟩)))
        · simp at h
      · exact absurd (hmap _ _ h) id
    · simp at h
    · split at h
      · simp at h
      · split at h
        · injection h with h; injection h with h
          exact Or.inr (Or.inr (Or.inr (Or.inr (Or.inl ⟨hn, _, h.symm⟩))))
        · injection h with h; injection h with h
          exact Or.inr (Or.inr (Or.inr (Or.inr (Or.inr ⟨_, h.symm⟩))))
    · injection h with h; injection h with h
      exact Or.inr (Or.inr (Or.inr (Or.inr (Or.inr ⟨_, h.symm⟩))))
  rcases key with rfl | ⟨a, b, rfl⟩ | ⟨a, b, c, d, rfl⟩ | ⟨a, b, c, d, e, rfl⟩ | h | ⟨b, rfl⟩
  · exact Or.inl (by simp)
  · exact Or.inl (dateG_small _ _)
  · exact Or.inl (dateF_small _ _ _ _)
  · exact Or.inl (dateI_small _ _ _ _ _)
  · exact Or.inr h
  · exact Or.inl (binDecode_small _)

theorem function_small (dif : UInt8) : ∀ c ∈ (functionString dif).toList, c.toNat < 256 := by
  have : ∀ dif : UInt8, ∀ c ∈ (functionString dif).toList, c.toNat < 256 := by decide +kernel
  exact this dif

theorem normalize_chars (env : XmlEnv) (r : DataRecord) (n : NormalizedRecord)
    (h : normalizeRecord env r = some n) :
    (∀ c ∈ n.function, c.toNat < 256) ∧ (∀ c ∈ n.unit, c.toNat < 256) ∧ (∀ c ∈ n.quantity, c.toNat < 256) ∧
      ∀ text, n.value = .str text → (∀ c ∈ text, c.toNat < 256) ∨
        (r.header.raw.dib.dif &&& 0x0F = 13 ∧ ∃ b, text = env.lossy b) := by
  unfold normalizeRecord at h
  simp only at h
  split at h
  · injection h with h
    subst h
    refine ⟨?_, by simp, by simp, ?_⟩
    · simp only
      split <;> decide
    · rintro text ht
      injection ht with ht; subst ht
      exact Or.inl (binDecode_small _)
  · simp only [Option.bind_eq_bind, Option.bind_eq_some_iff] at h
    obtain ⟨vib, hv, value, hval, ⟨u, f, q⟩, hu, h⟩ := h
    injection h with h
    subst h
    have huq : (∀ c ∈ u, c.toNat < 256) ∧ (∀ c ∈ q, c.toNat < 256) := by
      unfold vibUnit at hu
      split at hu
      · split at hu
        · simp at hu
        · exact unit_chars _ _ _ _ hu
      · split at hu
        · split at hu
          · simp at hu
          · exact unit_chars _ _ _ _ hu
        · split at hu
          · simp only [Option.some.injEq, Prod.mk.injEq] at hu
            obtain ⟨rfl, _, rfl⟩ := hu
            refine ⟨by decide, ?_⟩
            intro c hc
            cases hp : vib.plaintext with
            | none => rw [hp] at hc; simp at hc
            | some bs =>
              rw [hp] at hc
              simp only [Option.map_some, Option.getD_some, List.mem_map] at hc
              obtain ⟨b, _, rfl⟩ := hc
              rw [ofNat_byte]; exact b.toNat_lt
          · exact unit_chars _ _ _ _ hu
    refine ⟨function_small _, huq.1, huq.2, ?_⟩
    intro text ht
    cases value with
    | real v => simp at ht
    | str t =>
      simp only at ht
      injection ht with ht; subst ht
      exact decoded_chars env _ _ _ _ _ hval

end MBus
