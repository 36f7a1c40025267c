import Verif.Spec.Json
import Verif.Lemmas.Hex
/-! Lemmas about JSON texts: what the writer writes is a JSON text, and a JSON text has one meaning. -/
namespace MBus
open Spec

/-! ## What is written can be read -/

/-- Number literals are valid and names are unique. -/
inductive Sound : Doc → Prop
  | null : Sound .null
  | bool (b : Bool) : Sound (.bool b)
  | num (literal : List Char) : NumberText literal → Sound (.num literal)
  | str (text : List Char) : Sound (.str text)
  | arr (xs : List Doc) : (∀ x ∈ xs, Sound x) → Sound (.arr xs)
  | obj (ms : List (List Char × Doc)) : (ms.map (·.1)).Nodup → (∀ m ∈ ms, Sound m.2) → Sound (.obj ms)

theorem Sound.unique {d : Doc} (h : Sound d) : UniqueNames d := by
  induction h with
  | null => exact .null
  | bool b => exact .bool b
  | num l _ => exact .num l
  | str t => exact .str t
  | arr xs _ ih => exact .arr xs ih
  | obj ms hn _ ih => exact .obj ms hn ih

theorem string_reads (s : List Char) : StringText (s.flatMap jsonEscape) s := by
  induction s with
  | nil => exact .nil
  | cons c s ih =>
    rw [List.flatMap_cons]
    unfold jsonEscape
    by_cases h34 : c = '"'
    · rw [if_pos h34, h34]; exact .short '"' '"' (by decide) ih
    rw [if_neg h34]
    by_cases h92 : c = '\\'
    · rw [if_pos h92, h92]; exact .short '\\' '\\' (by decide) ih
    rw [if_neg h92]
    by_cases h98 : c = '\x08'
    · rw [if_pos h98, h98]; exact .short 'b' '\x08' (by decide) ih
    rw [if_neg h98]
    by_cases h102 : c = '\x0C'
    · rw [if_pos h102, h102]; exact .short 'f' '\x0C' (by decide) ih
    rw [if_neg h102]
    by_cases h110 : c = '\n'
    · rw [if_pos h110, h110]; exact .short 'n' '\n' (by decide) ih
    rw [if_neg h110]
    by_cases h114 : c = '\r'
    · rw [if_pos h114, h114]; exact .short 'r' '\r' (by decide) ih
    rw [if_neg h114]
    by_cases h116 : c = '\t'
    · rw [if_pos h116, h116]; exact .short 't' '\t' (by decide) ih
    rw [if_neg h116]
    by_cases hc : c.toNat < 0x20
    · rw [if_pos hc]
      have key : ∀ n < 32, Hex4 ['0', '0', if n < 16 then '0' else '1', (upperHexDigit (n % 16)).toLower] n := by
        have h : ∀ n < 32, hexDigit (if n < 16 then '0' else '1') = some (n / 16) ∧
            hexDigit (upperHexDigit (n % 16)).toLower = some (n % 16) := by decide +kernel
        intro n hn
        obtain ⟨h1, h2⟩ := h n hn
        exact ⟨_, _, _, _, 0, 0, n / 16, n % 16, rfl, by decide, by decide, h1, h2, by omega⟩
      exact .unicode c (key _ hc) ih
    · rw [if_neg hc]
      exact .plain c (by omega) h34 h92 ih

theorem blank_break (p : Bool) (n : Nat) : JsonBlank (jsonBreak p n) := by
  intro c hc
  unfold jsonBreak at hc
  split at hc
  · rw [List.mem_cons] at hc
    rcases hc with rfl | hc
    · decide
    · rw [(List.mem_replicate.1 hc).2]; decide
  · cases hc

theorem blank_nil : JsonBlank [] := fun _ h => by cases h

theorem items_reads (p : Bool) (n m : Nat) (xs : List Doc) (x : Doc)
    (h : ∀ y ∈ x :: xs, ∀ p n, ValueText (y.text p n) y) :
    ItemsText (jsonBreak p n ++ x.text p n ++ itemsText p n false xs ++ jsonBreak p m) (x :: xs) := by
  induction xs generalizing x with
  | nil =>
    simp only [itemsText, List.append_nil]
    exact .last (blank_break _ _) (h x (by simp) p n) (blank_break _ _)
  | cons y ys ih =>
    have := ih y (fun z hz => h z (List.mem_cons_of_mem _ hz))
    have h2 := ItemsText.more (blank_break p n) (h x (by simp) p n) blank_nil this
    simpa only [itemsText, jsonNext, List.append_assoc, List.cons_append, List.nil_append,
      Bool.false_eq_true, ite_false] using h2

theorem members_reads (p : Bool) (n k : Nat) (ms : List (List Char × Doc)) (m : List Char × Doc)
    (h : ∀ y ∈ m :: ms, ∀ p n, ValueText (y.2.text p n) y.2) :
    MembersText (jsonBreak p n ++ jsonString m.1 ++ jsonColon p ++ m.2.text p n
      ++ membersText p n false ms ++ jsonBreak p k) (m :: ms) := by
  have hcolon : ∃ c, jsonColon p = ':' :: c ∧ JsonBlank c := by
    cases p
    · exact ⟨[], rfl, blank_nil⟩
    · exact ⟨[' '], rfl, by intro c hc; simp at hc; subst hc; decide⟩
  obtain ⟨c, hc, hb⟩ := hcolon
  induction ms generalizing m with
  | nil =>
    obtain ⟨key, x⟩ := m
    have h2 := MembersText.last (blank_break p n) (string_reads key) blank_nil hb (h (key, x) (by simp) p n)
      (blank_break p k)
    simpa only [membersText, hc, jsonString, List.append_assoc, List.cons_append, List.nil_append] using h2
  | cons y ys ih =>
    obtain ⟨key, x⟩ := m
    have h1 := ih y (fun z hz => h z (List.mem_cons_of_mem _ hz))
    have h2 := MembersText.more (blank_break p n) (string_reads key) blank_nil hb (h (key, x) (by simp) p n)
      blank_nil h1
    obtain ⟨key', x'⟩ := y
    simpa only [membersText, jsonNext, hc, jsonString, List.append_assoc, List.cons_append, List.nil_append,
      Bool.false_eq_true, ite_false] using h2

theorem text_reads {d : Doc} (h : Sound d) : ∀ p n, ValueText (d.text p n) d := by
  induction h with
  | null => intro p n; simp only [Doc.text]; exact .null
  | bool b => intro p n; cases b <;> simp only [Doc.text]; exacts [.false, .true]
  | num l hl => intro p n; simp only [Doc.text]; exact .num hl
  | str t => intro p n; simp only [Doc.text]; exact .str (string_reads t)
  | arr xs _ ih =>
    intro p n
    cases xs with
    | nil => simp only [Doc.text]; exact .noItems blank_nil
    | cons x xs =>
      simp only [Doc.text, itemsText, jsonNext, ite_true, List.nil_append]
      exact .items (items_reads p (n + 1) n xs x ih)
  | obj ms _ _ ih =>
    intro p n
    cases ms with
    | nil => simp only [Doc.text]; exact .noMembers blank_nil
    | cons m ms =>
      obtain ⟨key, x⟩ := m
      simp only [Doc.text, membersText, jsonNext, ite_true, List.nil_append]
      exact .members (members_reads p (n + 1) n ms (key, x) ih)

/-! ## A text has one meaning -/

theorem span_eq {P : Char → Prop} {a a' s s' : List Char} {x y : Char} (ha : ∀ c ∈ a, P c)
    (ha' : ∀ c ∈ a', P c) (hx : ¬ P x) (hy : ¬ P y) (h : a ++ x :: s = a' ++ y :: s') :
    a = a' ∧ x = y ∧ s = s' := by
  induction a generalizing a' with
  | nil =>
    cases a' with
    | nil => simp at h; exact ⟨rfl, h⟩
    | cons c a' =>
      simp only [List.nil_append, List.cons_append, List.cons.injEq] at h
      exact absurd (h.1 ▸ ha' c (by simp)) hx
  | cons c a ih =>
    cases a' with
    | nil =>
      simp only [List.nil_append, List.cons_append, List.cons.injEq] at h
      exact absurd (h.1 ▸ ha c (by simp)) hy
    | cons c' a' =>
      simp only [List.cons_append, List.cons.injEq] at h
      obtain ⟨rfl, h⟩ := h
      obtain ⟨h1, h2⟩ := ih (fun z hz => ha z (List.mem_cons_of_mem _ hz))
        (fun z hz => ha' z (List.mem_cons_of_mem _ hz)) h
      exact ⟨by rw [h1], h2⟩

/-- Characters of number literals. -/
def Numeric (c : Char) : Prop := c ∈ ['0', '1', '2', '3', '4', '5', '6', '7', '8', '9', '.', '-', '+', 'e', 'E']

instance (c : Char) : Decidable (Numeric c) := by unfold Numeric; infer_instance

/-- What follows a number literal. -/
def Ended (r : List Char) : Prop := r = [] ∨ ∃ c s, r = c :: s ∧ ¬ Numeric c

theorem digit_numeric (c : Char) (h : '0' ≤ c ∧ c ≤ '9') : Numeric c := by
  have h1 : 48 ≤ c.toNat := h.1
  have h2 : c.toNat ≤ 57 := h.2
  have key : ∀ n, 48 ≤ n → n ≤ 57 → Char.ofNat n ∈ ['0', '1', '2', '3', '4', '5', '6', '7', '8', '9', '.', '-', '+', 'e', 'E'] := by
    intro n h1 h2
    interval_cases n <;> decide
  have := key _ h1 h2
  rwa [Char.ofNat_toNat] at this

theorem number_numeric {t : List Char} (h : NumberText t) : ∀ c ∈ t, Numeric c := by
  obtain ⟨sign, int, frac, exp, rfl, hs, hi, hf, he⟩ := h
  have hd : ∀ ds, JsonDigits ds → ∀ c ∈ ds, Numeric c := fun ds h c hc => digit_numeric c (h c hc)
  intro c hc
  simp only [List.mem_append] at hc
  rcases hc with ((hc | hc) | hc) | hc
  · rcases hs with rfl | rfl
    · cases hc
    · simp at hc; subst hc; decide
  · rcases hi with rfl | ⟨d, ds, rfl, h1, h2, h3⟩
    · simp at hc; subst hc; decide
    · rw [List.mem_cons] at hc
      rcases hc with rfl | hc
      · exact digit_numeric _ ⟨Nat.le_trans (by decide) h1, h2⟩
      · exact hd ds h3 c hc
  · rcases hf with rfl | ⟨ds, rfl, _, h3⟩
    · cases hc
    · rw [List.mem_cons] at hc
      rcases hc with rfl | hc
      · decide
      · exact hd ds h3 c hc
  · rcases he with rfl | ⟨e, s, ds, rfl, h1, h2, _, h3⟩
    · cases hc
    · simp only [List.cons_append, List.mem_cons, List.mem_append] at hc
      rcases hc with rfl | hc | hc
      · rcases h1 with rfl | rfl <;> decide
      · rcases h2 with rfl | rfl | rfl
        · cases hc
        · simp at hc; subst hc; decide
        · simp at hc; subst hc; decide
      · exact hd ds h3 c hc

theorem number_head {t : List Char} (h : NumberText t) : ∃ c r, t = c :: r ∧ Numeric c ∧ c ≠ 'e' := by
  have hn := number_numeric h
  obtain ⟨sign, int, frac, exp, rfl, hs, hi, -, -⟩ := h
  rcases hs with rfl | rfl
  · rcases hi with rfl | ⟨d, ds, rfl, h1, h2, -⟩
    · exact ⟨'0', frac ++ exp, by simp, by decide, by decide⟩
    · refine ⟨d, ds ++ (frac ++ exp), by simp, hn d (by simp), ?_⟩
      rintro rfl; exact absurd h2 (by decide)
  · exact ⟨'-', int ++ (frac ++ exp), by simp, by decide, by decide⟩

theorem number_eq {t t' r r' : List Char} (ht : NumberText t) (ht' : NumberText t') (hr : Ended r)
    (hr' : Ended r') (h : t ++ r = t' ++ r') : t = t' := by
  have h1 := number_numeric ht
  have h2 := number_numeric ht'
  have key : ∀ {a b s : List Char} {c : Char}, (∀ x ∈ b, Numeric x) → ¬ Numeric c → a ++ c :: s ≠ b := by
    rintro a b s c hb hc rfl
    exact hc (hb c (by simp))
  rcases hr with rfl | ⟨c, s, rfl, hc⟩ <;> rcases hr' with rfl | ⟨c', s', rfl, hc'⟩
  · simpa using h
  · rw [List.append_nil] at h; exact absurd h.symm (key h1 hc')
  · rw [List.append_nil] at h; exact absurd h (key h2 hc)
  · exact (span_eq h1 h2 hc hc' h).1

theorem hex4_eq {h h' t t' : List Char} {n n' : Nat} (h1 : Hex4 h n) (h2 : Hex4 h' n')
    (he : h ++ t = h' ++ t') : n = n' ∧ h = h' ∧ t = t' := by
  obtain ⟨a, b, c, d, i, j, k, l, rfl, e1, e2, e3, e4, rfl⟩ := h1
  obtain ⟨a', b', c', d', i', j', k', l', rfl, f1, f2, f3, f4, rfl⟩ := h2
  simp only [List.cons_append, List.nil_append, List.cons.injEq] at he
  obtain ⟨rfl, rfl, rfl, rfl, rfl⟩ := he
  simp_all

theorem short_not_u : ∀ p ∈ shortEscapes, p.1 ≠ 'u' := by decide

theorem short_eq : ∀ p ∈ shortEscapes, ∀ q ∈ shortEscapes, p.1 = q.1 → p.2 = q.2 := by decide

theorem char_not_surrogate (c : Char) (i : Nat) (h : c.toNat = 0xD800 + i) (hi : i < 0x400) : False := by
  have := c.valid
  unfold UInt32.isValidChar Nat.isValidChar at this
  have h' : c.val.toNat = 0xD800 + i := h
  omega

theorem char_eq_of_toNat {a b : Char} (h : a.toNat = b.toNat) : a = b := by
  rw [← Char.ofNat_toNat a, h, Char.ofNat_toNat]

/-- A string ends at its closing quote and has one meaning. -/
theorem string_eq {t s : List Char} (h : StringText t s) : ∀ {t' s' r r' : List Char}, StringText t' s' →
    t ++ '"' :: r = t' ++ '"' :: r' → t = t' ∧ s = s' ∧ r = r' := by
  induction h with
  | nil =>
    intro t' s' r r' h' he
    cases h' with
    | nil => simp at he; exact ⟨rfl, rfl, he⟩
    | plain c _ hq => simp at he; exact absurd he.1.symm hq
    | short e c => simp at he
    | unicode c => simp at he
    | surrogates c => simp at he
  | @plain t s c h1 h2 h3 ht ih =>
    intro t' s' r r' h' he
    cases h' with
    | nil => simp at he; exact absurd he.1 h2
    | plain c' _ _ _ ht' =>
      simp only [List.cons_append, List.cons.injEq] at he
      obtain ⟨rfl, he⟩ := he
      obtain ⟨rfl, rfl, rfl⟩ := ih ht' he
      exact ⟨rfl, rfl, rfl⟩
    | short e c' => simp at he; exact absurd he.1 h3
    | unicode c' => simp at he; exact absurd he.1 h3
    | surrogates c' => simp at he; exact absurd he.1 h3
  | @short t s e c hm ht ih =>
    intro t' s' r r' h' he
    cases h' with
    | nil => simp at he
    | plain c' _ _ h3 => simp at he; exact absurd he.1.symm h3
    | short e' c' hm' ht' =>
      simp only [List.cons_append, List.cons.injEq, true_and] at he
      obtain ⟨rfl, he⟩ := he
      obtain ⟨rfl, rfl, rfl⟩ := ih ht' he
      have := short_eq _ hm _ hm' rfl
      simp only at this
      subst this
      exact ⟨rfl, rfl, rfl⟩
    | unicode c' => simp at he; exact absurd he.1 (short_not_u _ hm)
    | surrogates c' => simp at he; exact absurd he.1 (short_not_u _ hm)
  | @unicode t s h c hx ht ih =>
    intro t' s' r r' h' he
    cases h' with
    | nil => simp at he
    | plain c' _ _ h3 => simp at he; exact absurd he.1.symm h3
    | short e' c' hm' ht' => simp at he; exact absurd he.1.symm (short_not_u _ hm')
    | unicode c' hx' ht' =>
      simp only [List.cons_append, List.cons.injEq, true_and, List.append_assoc] at he
      obtain ⟨hn, rfl, he2⟩ := hex4_eq hx hx' he; clear he
      obtain ⟨rfl, rfl, rfl⟩ := ih ht' he2
      rw [char_eq_of_toNat hn]
      exact ⟨rfl, rfl, rfl⟩
    | surrogates c' i j hx' hi =>
      simp only [List.cons_append, List.cons.injEq, true_and, List.append_assoc] at he
      obtain ⟨hn, rfl, he2⟩ := hex4_eq hx hx' he; clear he
      exact (char_not_surrogate c i hn hi).elim
  | @surrogates t s h l c i j hx hi hy hj hc ht ih =>
    intro t' s' r r' h' he
    cases h' with
    | nil => simp at he
    | plain c' _ _ h3 => simp at he; exact absurd he.1.symm h3
    | short e' c' hm' ht' => simp at he; exact absurd he.1.symm (short_not_u _ hm')
    | unicode c' hx' ht' =>
      simp only [List.cons_append, List.cons.injEq, true_and, List.append_assoc] at he
      obtain ⟨hn, rfl, he2⟩ := hex4_eq hx hx' he; clear he
      exact (char_not_surrogate c' i hn.symm hi).elim
    | surrogates c' i' j' hx' hi' hy' hj' hc' ht' =>
      simp only [List.cons_append, List.cons.injEq, true_and, List.append_assoc] at he
      obtain ⟨hn, rfl, he2⟩ := hex4_eq hx hx' he; clear he
      simp only [List.cons.injEq, true_and] at he2
      obtain ⟨hn', rfl, he⟩ := hex4_eq hy hy' he2
      obtain ⟨rfl, rfl, rfl⟩ := ih ht' he
      rw [char_eq_of_toNat (show c.toNat = c'.toNat by omega)]
      exact ⟨rfl, rfl, rfl⟩

/-- White space characters. -/
def Blank (c : Char) : Prop := c ∈ [' ', '\t', '\n', '\r']

instance (c : Char) : Decidable (Blank c) := by unfold Blank; infer_instance

/-- Characters that start a value. -/
def Starts (c : Char) : Prop := ¬ Blank c ∧ c ∉ [']', '}', ',', ':']

instance (c : Char) : Decidable (Starts c) := by unfold Starts; infer_instance

theorem numeric_starts (c : Char) (h : Numeric c) : Starts c := by
  have : ∀ c ∈ ['0', '1', '2', '3', '4', '5', '6', '7', '8', '9', '.', '-', '+', 'e', 'E'], Starts c := by decide
  exact this c h

theorem value_head {t : List Char} {d : Doc} (h : ValueText t d) : ∃ c s, t = c :: s ∧ Starts c := by
  cases h with
  | null => exact ⟨_, _, rfl, by decide⟩
  | true => exact ⟨_, _, rfl, by decide⟩
  | false => exact ⟨_, _, rfl, by decide⟩
  | num hn =>
    obtain ⟨c, r, h1, h2, -⟩ := number_head hn
    exact ⟨c, r, h1, numeric_starts c h2⟩
  | str => exact ⟨_, _, rfl, by decide⟩
  | noItems => exact ⟨_, _, rfl, by decide⟩
  | items => exact ⟨_, _, rfl, by decide⟩
  | noMembers => exact ⟨_, _, rfl, by decide⟩
  | members => exact ⟨_, _, rfl, by decide⟩

theorem items_head {t : List Char} {xs : List Doc} (h : ItemsText t xs) :
    ∃ a c s, t = a ++ c :: s ∧ JsonBlank a ∧ Starts c := by
  cases h with
  | last ha ht =>
    obtain ⟨c, s, rfl, hc⟩ := value_head ht
    exact ⟨_, c, _, by simp only [List.append_assoc, List.cons_append]; rfl, ha, hc⟩
  | more ha ht =>
    obtain ⟨c, s, rfl, hc⟩ := value_head ht
    exact ⟨_, c, _, by simp only [List.append_assoc, List.cons_append]; rfl, ha, hc⟩

theorem members_head {t : List Char} {ms : List (List Char × Doc)} (h : MembersText t ms) :
    ∃ a s, t = a ++ '"' :: s ∧ JsonBlank a := by
  cases h with
  | last ha ht => exact ⟨_, _, by simp only [List.append_assoc, List.cons_append]; rfl, ha⟩
  | more ha ht => exact ⟨_, _, by simp only [List.append_assoc, List.cons_append]; rfl, ha⟩

/-- A text of a value determines where it ends and what it means. -/
def OneMeaning (t : List Char) (d : Doc) : Prop :=
  ∀ {t' r r' : List Char} {d' : Doc}, ValueText t' d' → Ended r → Ended r' → t ++ r = t' ++ r' →
    t = t' ∧ d = d' ∧ r = r'

theorem ended_blank {b s : List Char} {y : Char} (hb : JsonBlank b) (hy : ¬ Numeric y) :
    Ended (b ++ y :: s) := by
  cases b with
  | nil => exact .inr ⟨y, s, rfl, hy⟩
  | cons c b =>
    refine .inr ⟨c, _, rfl, ?_⟩
    have : ∀ c ∈ [' ', '\t', '\n', '\r'], ¬ Numeric c := by decide
    exact this c (hb c (by simp))

theorem element_eq {a t b s a' t' b' s' : List Char} {x x' : Doc} {y y' : Char} (hx : ValueText t x)
    (ih : OneMeaning t x) (hx' : ValueText t' x') (ha : JsonBlank a) (ha' : JsonBlank a') (hb : JsonBlank b)
    (hb' : JsonBlank b') (hy : y ∈ [']', '}', ',']) (hy' : y' ∈ [']', '}', ','])
    (h : a ++ (t ++ (b ++ y :: s)) = a' ++ (t' ++ (b' ++ y' :: s'))) :
    a = a' ∧ t = t' ∧ x = x' ∧ b = b' ∧ y = y' ∧ s = s' := by
  have key : ∀ y ∈ [']', '}', ','], ¬ Numeric y ∧ ¬ Blank y := by decide
  obtain ⟨c, q, hc, hs⟩ := value_head hx
  obtain ⟨c', q', hc', hs'⟩ := value_head hx'
  have e1 : a ++ c :: (q ++ (b ++ y :: s)) = a' ++ c' :: (q' ++ (b' ++ y' :: s')) := by
    rw [hc, hc'] at h; simpa using h
  obtain ⟨rfl, h2, h3⟩ := span_eq (P := Blank) ha ha' hs.1 hs'.1 e1
  have e2 : t ++ (b ++ y :: s) = t' ++ (b' ++ y' :: s') := List.append_cancel_left h
  obtain ⟨rfl, rfl, e3⟩ := ih hx' (ended_blank hb (key y hy).1) (ended_blank hb' (key y' hy').1) e2
  obtain ⟨rfl, rfl, rfl⟩ := span_eq (P := Blank) hb hb' (key y hy).2 (key y' hy').2 e3
  exact ⟨rfl, rfl, rfl, rfl, rfl, rfl⟩

theorem member_eq {a k b c t d s a' k' b' c' t' d' s' key key' : List Char} {x x' : Doc} {y y' : Char}
    (hk : StringText k key) (hk' : StringText k' key') (hx : ValueText t x)
    (ih : OneMeaning t x) (hx' : ValueText t' x') (ha : JsonBlank a) (ha' : JsonBlank a') (hb : JsonBlank b)
    (hb' : JsonBlank b') (hc : JsonBlank c) (hc' : JsonBlank c') (hd : JsonBlank d) (hd' : JsonBlank d')
    (hy : y ∈ [']', '}', ',']) (hy' : y' ∈ [']', '}', ','])
    (h : a ++ '"' :: (k ++ '"' :: (b ++ ':' :: (c ++ (t ++ (d ++ y :: s))))) =
      a' ++ '"' :: (k' ++ '"' :: (b' ++ ':' :: (c' ++ (t' ++ (d' ++ y' :: s')))))) :
    a = a' ∧ k = k' ∧ key = key' ∧ b = b' ∧ c = c' ∧ t = t' ∧ x = x' ∧ d = d' ∧ y = y' ∧ s = s' := by
  obtain ⟨rfl, -, e1⟩ := span_eq (P := Blank) ha ha' (by decide) (by decide) h
  obtain ⟨rfl, rfl, e2⟩ := string_eq hk hk' e1
  obtain ⟨rfl, -, e3⟩ := span_eq (P := Blank) hb hb' (by decide) (by decide) e2
  obtain ⟨rfl, rfl, rfl, rfl, rfl, rfl⟩ := element_eq hx ih hx' hc hc' hd hd' hy hy' e3
  exact ⟨rfl, rfl, rfl, rfl, rfl, rfl, rfl, rfl, rfl, rfl⟩

theorem blank_vs_head {w a s r : List Char} {x c : Char} (hw : JsonBlank w) (ha : JsonBlank a)
    (hx : x ∈ [']', '}']) (hc : ¬ Blank c) (hne : c ≠ x) (h : w ++ x :: r = a ++ c :: s) : False := by
  have key : ∀ x ∈ [']', '}'], ¬ Blank x := by decide
  exact hne (span_eq (P := Blank) hw ha (key x hx) hc h).2.1.symm

theorem start_ne {c x : Char} (h : Starts c) (hx : x ∈ [']', '}', ',', ':']) : c ≠ x := by
  rintro rfl; exact h.2 hx

theorem value_eq {t : List Char} {d : Doc} (h : ValueText t d) : OneMeaning t d := by
  refine ValueText.rec (motive_1 := fun t d _ => OneMeaning t d)
    (motive_2 := fun t xs _ => ∀ {t' r r' : List Char} {xs' : List Doc}, ItemsText t' xs' →
      t ++ ']' :: r = t' ++ ']' :: r' → t = t' ∧ xs = xs' ∧ r = r')
    (motive_3 := fun t ms _ => ∀ {t' r r' : List Char} {ms' : List (List Char × Doc)}, MembersText t' ms' →
      t ++ '}' :: r = t' ++ '}' :: r' → t = t' ∧ ms = ms' ∧ r = r')
    ?_ ?_ ?_ ?_ ?_ ?_ ?_ ?_ ?_ ?_ ?_ ?_ ?_ h
  · intro t' r r' d' h' hr hr' he
    cases h' with
    | null => simpa using he
    | num hn =>
      obtain ⟨c, s, rfl, h1, h2⟩ := number_head hn
      simp only [List.cons_append, List.cons.injEq] at he
      rw [← he.1] at h1; exact absurd h1 (by decide)
    | _ => simp at he
  · intro t' r r' d' h' hr hr' he
    cases h' with
    | true => simpa using he
    | num hn =>
      obtain ⟨c, s, rfl, h1, h2⟩ := number_head hn
      simp only [List.cons_append, List.cons.injEq] at he
      rw [← he.1] at h1; exact absurd h1 (by decide)
    | _ => simp at he
  · intro t' r r' d' h' hr hr' he
    cases h' with
    | false => simpa using he
    | num hn =>
      obtain ⟨c, s, rfl, h1, h2⟩ := number_head hn
      simp only [List.cons_append, List.cons.injEq] at he
      rw [← he.1] at h1; exact absurd h1 (by decide)
    | _ => simp at he
  · intro t hn t' r r' d' h' hr hr' he
    have hhead := number_head hn
    cases h' with
    | num hn' =>
      have := number_eq hn hn' hr hr' he
      subst this
      exact ⟨rfl, rfl, List.append_cancel_left he⟩
    | _ =>
      obtain ⟨c, s, rfl, h1, h2⟩ := hhead
      simp only [List.cons_append, List.cons.injEq] at he
      rw [he.1] at h1; exact absurd h1 (by decide)
  · intro t s hs t' r r' d' h' hr hr' he
    cases h' with
    | str hs' =>
      simp only [List.cons_append, List.cons.injEq, true_and, List.append_assoc, List.nil_append] at he
      obtain ⟨rfl, rfl, rfl⟩ := string_eq hs hs' he
      exact ⟨rfl, rfl, rfl⟩
    | num hn =>
      obtain ⟨c, s, rfl, h1, h2⟩ := number_head hn
      simp only [List.cons_append, List.cons.injEq] at he
      rw [← he.1] at h1; exact absurd h1 (by decide)
    | _ => simp at he
  · intro w hw t' r r' d' h' hr hr' he
    cases h' with
    | noItems hw' =>
      simp only [List.cons_append, List.cons.injEq, true_and, List.append_assoc, List.nil_append] at he
      obtain ⟨rfl, -, rfl⟩ := span_eq (P := Blank) hw hw' (by decide) (by decide) he
      exact ⟨rfl, rfl, rfl⟩
    | items hi =>
      obtain ⟨a, c, s, rfl, ha, hc⟩ := items_head hi
      simp only [List.cons_append, List.cons.injEq, true_and, List.append_assoc, List.nil_append] at he
      exact (blank_vs_head hw ha (by decide) hc.1 (start_ne hc (by decide)) he).elim
    | num hn =>
      obtain ⟨c, s, rfl, h1, h2⟩ := number_head hn
      simp only [List.cons_append, List.cons.injEq] at he
      rw [← he.1] at h1; exact absurd h1 (by decide)
    | _ => simp at he
  · intro t xs hi ih t' r r' d' h' hr hr' he
    cases h' with
    | noItems hw' =>
      obtain ⟨a, c, s, rfl, ha, hc⟩ := items_head hi
      simp only [List.cons_append, List.cons.injEq, true_and, List.append_assoc, List.nil_append] at he
      exact (blank_vs_head hw' ha (by decide) hc.1 (start_ne hc (by decide)) he.symm).elim
    | items hi' =>
      simp only [List.cons_append, List.cons.injEq, true_and, List.append_assoc, List.nil_append] at he
      obtain ⟨rfl, rfl, rfl⟩ := ih hi' he
      exact ⟨rfl, rfl, rfl⟩
    | num hn =>
      obtain ⟨c, s, rfl, h1, h2⟩ := number_head hn
      simp only [List.cons_append, List.cons.injEq] at he
      rw [← he.1] at h1; exact absurd h1 (by decide)
    | _ => simp at he
  · intro w hw t' r r' d' h' hr hr' he
    cases h' with
    | noMembers hw' =>
      simp only [List.cons_append, List.cons.injEq, true_and, List.append_assoc, List.nil_append] at he
      obtain ⟨rfl, -, rfl⟩ := span_eq (P := Blank) hw hw' (by decide) (by decide) he
      exact ⟨rfl, rfl, rfl⟩
    | members hi =>
      obtain ⟨a, s, rfl, ha⟩ := members_head hi
      simp only [List.cons_append, List.cons.injEq, true_and, List.append_assoc, List.nil_append] at he
      exact (blank_vs_head hw ha (by decide) (by decide) (by decide) he).elim
    | num hn =>
      obtain ⟨c, s, rfl, h1, h2⟩ := number_head hn
      simp only [List.cons_append, List.cons.injEq] at he
      rw [← he.1] at h1; exact absurd h1 (by decide)
    | _ => simp at he
  · intro t ms hi ih t' r r' d' h' hr hr' he
    cases h' with
    | noMembers hw' =>
      obtain ⟨a, s, rfl, ha⟩ := members_head hi
      simp only [List.cons_append, List.cons.injEq, true_and, List.append_assoc, List.nil_append] at he
      exact (blank_vs_head hw' ha (by decide) (by decide) (by decide) he.symm).elim
    | members hi' =>
      simp only [List.cons_append, List.cons.injEq, true_and, List.append_assoc, List.nil_append] at he
      obtain ⟨rfl, rfl, rfl⟩ := ih hi' he
      exact ⟨rfl, rfl, rfl⟩
    | num hn =>
      obtain ⟨c, s, rfl, h1, h2⟩ := number_head hn
      simp only [List.cons_append, List.cons.injEq] at he
      rw [← he.1] at h1; exact absurd h1 (by decide)
    | _ => simp at he
  · intro a t b x ha hx hb ih t' r r' xs' h' he
    cases h' with
    | last ha' hx' hb' =>
      simp only [List.append_assoc] at he
      obtain ⟨rfl, rfl, rfl, rfl, -, rfl⟩ := element_eq hx ih hx' ha ha' hb hb' (by decide) (by decide) he
      exact ⟨rfl, rfl, rfl⟩
    | more ha' hx' hb' =>
      simp only [List.append_assoc, List.cons_append] at he
      have := (element_eq hx ih hx' ha ha' hb hb' (by decide) (by decide) he).2.2.2.2.1
      exact absurd this (by decide)
  · intro a t b q x xs ha hx hb hq ih ihq t' r r' xs' h' he
    cases h' with
    | last ha' hx' hb' =>
      simp only [List.append_assoc, List.cons_append] at he
      have := (element_eq hx ih hx' ha ha' hb hb' (by decide) (by decide) he).2.2.2.2.1
      exact absurd this (by decide)
    | more ha' hx' hb' hq' =>
      simp only [List.append_assoc, List.cons_append] at he
      obtain ⟨rfl, rfl, rfl, rfl, -, e2⟩ := element_eq hx ih hx' ha ha' hb hb' (by decide) (by decide) he
      obtain ⟨rfl, rfl, rfl⟩ := ihq hq' e2
      exact ⟨rfl, rfl, rfl⟩
  · intro a k b c t d key x ha hk hb hc hx hd ih t' r r' ms' h' he
    cases h' with
    | last ha' hk' hb' hc' hx' hd' =>
      simp only [List.append_assoc, List.cons_append, List.nil_append] at he
      obtain ⟨rfl, rfl, rfl, rfl, rfl, rfl, rfl, rfl, -, rfl⟩ :=
        member_eq hk hk' hx ih hx' ha ha' hb hb' hc hc' hd hd' (by decide) (by decide) he
      exact ⟨rfl, rfl, rfl⟩
    | more ha' hk' hb' hc' hx' hd' hq' =>
      simp only [List.append_assoc, List.cons_append, List.nil_append] at he
      have := (member_eq hk hk' hx ih hx' ha ha' hb hb' hc hc' hd hd' (by decide) (by decide)
        he).2.2.2.2.2.2.2.2.1
      exact absurd this (by decide)
  · intro a k b c t d q key x ms ha hk hb hc hx hd hq ih ihq t' r r' ms' h' he
    cases h' with
    | last ha' hk' hb' hc' hx' hd' =>
      simp only [List.append_assoc, List.cons_append, List.nil_append] at he
      have := (member_eq hk hk' hx ih hx' ha ha' hb hb' hc hc' hd hd' (by decide) (by decide)
        he).2.2.2.2.2.2.2.2.1
      exact absurd this (by decide)
    | more ha' hk' hb' hc' hx' hd' hq' =>
      simp only [List.append_assoc, List.cons_append, List.nil_append] at he
      obtain ⟨rfl, rfl, rfl, rfl, rfl, rfl, rfl, rfl, -, e2⟩ :=
        member_eq hk hk' hx ih hx' ha ha' hb hb' hc hc' hd hd' (by decide) (by decide) he
      obtain ⟨rfl, rfl, rfl⟩ := ihq hq' e2
      exact ⟨rfl, rfl, rfl⟩

theorem json_eq {text : List Char} {d d' : Doc} (h : JsonText text d) (h' : JsonText text d') : d = d' := by
  obtain ⟨a, t, b, rfl, ha, ht, hb⟩ := h
  obtain ⟨a', t', b', he, ha', ht', hb'⟩ := h'
  obtain ⟨c, s, hc, hs⟩ := value_head ht
  obtain ⟨c', s', hc', hs'⟩ := value_head ht'
  have e1 : a ++ c :: (s ++ b) = a' ++ c' :: (s' ++ b') := by rw [hc, hc'] at he; simpa using he
  obtain ⟨rfl, -, -⟩ := span_eq (P := Blank) ha ha' hs.1 hs'.1 e1
  have hend : ∀ b, JsonBlank b → Ended b := by
    intro b hb
    cases b with
    | nil => exact .inl rfl
    | cons y b =>
      have := ended_blank (b := []) (s := b) (y := y) blank_nil (by
        have : ∀ c ∈ [' ', '\t', '\n', '\r'], ¬ Numeric c := by decide
        exact this y (hb y (by simp)))
      simpa using this
  have e2 : t ++ b = t' ++ b' := by
    simp only [List.append_assoc] at he; exact List.append_cancel_left he
  exact (value_eq ht ht' (hend b hb) (hend b' hb') e2).2.1

end MBus
