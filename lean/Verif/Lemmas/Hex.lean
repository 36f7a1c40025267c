import Verif.Model.Hex
import Verif.Spec.Hex
import Verif.Spec.RecordOutput
import Verif.Lemmas.RecordOutput
/-! Helper lemmas about the hexadecimal parsers. -/
namespace MBus
open Spec

theorem char_ascii (P : Char → Prop) (h : ∀ n < 128, P (Char.ofNat n))
    (h' : ∀ c : Char, 128 ≤ c.toNat → P c) (c : Char) : P c := by
  by_cases hc : c.toNat < 128
  · have := h c.toNat hc
    rwa [Char.ofNat_toNat] at this
  · exact h' c (by omega)

theorem char_le_iff (a b : Char) : a ≤ b ↔ a.toNat ≤ b.toNat := by
  rw [Char.le_def]; exact UInt32.le_iff_toNat_le

theorem toLower_big (c : Char) (h : 128 ≤ c.toNat) : c.toLower = c := by
  unfold Char.toLower
  rw [dif_neg]
  rintro ⟨-, h2⟩
  have := UInt32.le_iff_toNat_le.1 h2
  change c.toNat ≤ 90 at this
  omega

theorem toDigit16_eq (c : Char) : toDigit16 c = hexDigit c := by
  refine char_ascii (fun c => toDigit16 c = hexDigit c) (by decide +kernel) ?_ c
  intro c h
  unfold toDigit16 hexDigit
  rw [toLower_big c h]
  have e1 : ('0' : Char).toNat = 48 := rfl
  have e2 : ('9' : Char).toNat = 57 := rfl
  have e3 : ('a' : Char).toNat = 97 := rfl
  have e4 : ('f' : Char).toNat = 102 := rfl
  have e5 : ('A' : Char).toNat = 65 := rfl
  have e6 : ('F' : Char).toNat = 70 := rfl
  simp only [char_le_iff]
  rw [if_neg (by omega), if_neg (by omega), if_neg (by omega), eq_comm, List.findIdx?_eq_none_iff]
  intro x hx
  have hall : ∀ x ∈ "0123456789abcdef".toList, x.toNat < 128 := by decide
  have := hall x hx
  simp only [beq_eq_false_iff_ne, ne_eq]
  rintro rfl
  omega

theorem hexdigit_iff (c : Char) : isAsciiHexdigit c = (hexDigit c).isSome := by
  rw [← toDigit16_eq]
  refine char_ascii (fun c => isAsciiHexdigit c = (toDigit16 c).isSome) (by decide +kernel) ?_ c
  intro c h
  unfold isAsciiHexdigit toDigit16
  have e1 : ('0' : Char).toNat = 48 := rfl
  have e2 : ('9' : Char).toNat = 57 := rfl
  have e3 : ('a' : Char).toNat = 97 := rfl
  have e4 : ('f' : Char).toNat = 102 := rfl
  have e5 : ('A' : Char).toNat = 65 := rfl
  have e6 : ('F' : Char).toNat = 70 := rfl
  simp only [char_le_iff]
  rw [if_neg (by omega), if_neg (by omega), if_neg (by omega)]
  simp only [Option.isSome_none, Bool.or_eq_false_iff, Bool.and_eq_false_iff, decide_eq_false_iff_not]
  omega

theorem hexDigit_lt (c : Char) (d : Nat) (h : hexDigit c = some d) : d < 16 := by
  unfold hexDigit at h
  have := (List.findIdx?_eq_some_iff_getElem.1 h).1
  have hl : "0123456789abcdef".toList.length = 16 := by decide
  omega

theorem whitespace_iff (c : Char) : isWhitespace c = true ↔ c.toNat ∈ whiteSpace := by
  unfold isWhitespace whiteSpace
  simp only [Bool.or_eq_true, Bool.and_eq_true, decide_eq_true_eq, beq_iff_eq, List.mem_cons,
    List.not_mem_nil, or_false]
  omega

theorem separator_iff (c : Char) : isHexSeparator c = true ↔ c ∈ separators := by
  unfold isHexSeparator isAsciiWhitespace separators
  simp only [Bool.or_eq_true, beq_iff_eq, List.mem_cons, List.not_mem_nil, or_false]
  tauto

theorem dropWhile_all_append (p : Char → Bool) (l t : List Char) (h : ∀ c ∈ l, p c = true) :
    (l ++ t).dropWhile p = t.dropWhile p := by
  induction l with
  | nil => rfl
  | cons a l ih =>
    rw [List.cons_append, List.dropWhile_cons, if_pos (h a (by simp)), ih (fun c hc => h c (by simp [hc]))]

theorem dropWhile_head (p : Char → Bool) (t : List Char) (h : ∀ c ∈ t.head?, p c ≠ true) :
    t.dropWhile p = t := by
  cases t with
  | nil => rfl
  | cons a t => rw [List.dropWhile_cons, if_neg (h a (by simp))]

theorem trim_of_trimmed (text t : List Char) (h : Trimmed text t) : trim text = t := by
  obtain ⟨l, r, rfl, hw, hh, hl⟩ := h
  have hwl : ∀ c ∈ l, isWhitespace c = true := fun c hc => (whitespace_iff c).2 (hw c (by simp [hc]))
  have hwr : ∀ c ∈ r, isWhitespace c = true := fun c hc => (whitespace_iff c).2 (hw c (by simp [hc]))
  unfold trim
  rw [List.append_assoc, dropWhile_all_append _ _ _ hwl]
  rcases t with _ | ⟨a, t⟩
  · have hz := dropWhile_all_append isWhitespace r [] hwr
    rw [List.append_nil] at hz
    rw [List.nil_append, hz]
    rfl
  · rw [dropWhile_head _ (a :: t ++ r) (by
      intro c hc; simp only [List.cons_append, List.head?_cons, Option.mem_def, Option.some.injEq] at hc
      subst hc; rw [Ne, whitespace_iff]; exact hh _ (by simp))]
    rw [List.reverse_append, dropWhile_all_append _ _ _ (fun c hc => hwr c (by simpa using hc)),
      dropWhile_head _ _ ?_, List.reverse_reverse]
    intro c hc
    rw [List.head?_reverse] at hc
    rw [Ne, whitespace_iff]
    exact hl c hc

theorem dropWhile_split (p : Char → Bool) (t : List Char) : ∃ l, t = l ++ t.dropWhile p ∧
    (∀ c ∈ l, p c = true) := ⟨t.takeWhile p, (List.takeWhile_append_dropWhile).symm,
      fun c hc => by
        have := List.all_takeWhile (p := p) (l := t)
        exact (List.all_eq_true.1 this) c hc⟩

theorem dropWhile_head_not (p : Char → Bool) (t : List Char) : ∀ c ∈ (t.dropWhile p).head?, p c ≠ true := by
  intro c hc
  induction t with
  | nil => simp at hc
  | cons a t ih =>
    rw [List.dropWhile_cons] at hc
    split at hc
    · exact ih hc
    · rename_i hp
      simp only [List.head?_cons, Option.mem_def, Option.some.injEq] at hc
      subst hc; exact hp

theorem trimmed_trim (text : List Char) : Trimmed text (trim text) := by
  obtain ⟨l, h1, h2⟩ := dropWhile_split isWhitespace text
  obtain ⟨r, h3, h4⟩ := dropWhile_split isWhitespace (text.dropWhile isWhitespace).reverse
  have h3' : text.dropWhile isWhitespace = trim text ++ r.reverse := by
    have := congrArg List.reverse h3
    rw [List.reverse_reverse, List.reverse_append] at this
    exact this
  refine ⟨l, r.reverse, by rw [List.append_assoc, ← h3', ← h1], ?_, ?_, ?_⟩
  · intro c hc
    rw [← whitespace_iff]
    rcases List.mem_append.1 hc with hc | hc
    · exact h2 c hc
    · exact h4 c (by simpa using hc)
  · intro c hc
    rw [← whitespace_iff]
    refine dropWhile_head_not isWhitespace text c ?_
    rw [h3', List.head?_append, hc]
    rfl
  · intro c hc
    rw [← whitespace_iff]
    unfold trim at hc
    rw [List.getLast?_reverse] at hc
    exact dropWhile_head_not isWhitespace _ c hc

theorem trimmed_iff (text t : List Char) : Trimmed text t ↔ trim text = t :=
  ⟨trim_of_trimmed text t, fun h => h ▸ trimmed_trim text⟩

/-! ## bytes -/

theorem fromStrRadix_pair (a b : Char) (x y : Nat) (ha : hexDigit a = some x) (hb : hexDigit b = some y) :
    fromStrRadix16 [a, b] = some (UInt8.ofNat (16 * x + y)) := by
  have hx := hexDigit_lt a x ha
  have hy := hexDigit_lt b y hb
  have hp : a ≠ '+' := by
    rintro rfl
    have hn : hexDigit '+' = none := by decide
    rw [hn] at ha; cases ha
  unfold fromStrRadix16
  split
  · simp_all
  · simp_all
  · simp_all
  · simp_all
  · simp only [radixLoop, toDigit16_eq, ha, hb]
    rw [if_neg (by omega), if_neg (by omega)]
    simp only [Option.map_some, Option.some.injEq]
    congr 1; omega

theorem compactLoop_ok (t : List Char) (i : Nat) (h : ∀ c ∈ t, isAsciiHexdigit c = true)
    (he : t.length % 2 = 0) : ∃ bytes, compactLoop t i = .ok bytes ∧ Pairs t bytes := by
  fun_induction compactLoop t i with
  | case1 a b rest i hn =>
    have ha := h a (by simp)
    have hb := h b (by simp)
    rw [hexdigit_iff, Option.isSome_iff_exists] at ha hb
    obtain ⟨x, ha⟩ := ha
    obtain ⟨y, hb⟩ := hb
    rw [fromStrRadix_pair a b x y ha hb] at hn
    simp at hn
  | case2 a b rest i x hx ih =>
    have ha := h a (by simp)
    have hb := h b (by simp)
    rw [hexdigit_iff, Option.isSome_iff_exists] at ha hb
    obtain ⟨u, ha⟩ := ha
    obtain ⟨v, hb⟩ := hb
    rw [fromStrRadix_pair a b u v ha hb] at hx
    injection hx with hx
    subst hx
    obtain ⟨bytes, h1, h2⟩ := ih (fun c hc => h c (by simp [hc])) (by simp at he; omega)
    exact ⟨_, by rw [h1]; rfl, .cons a b u v rest bytes ha hb h2⟩
  | case3 t i hn =>
    match t, he, hn with
    | [], _, _ => exact ⟨[], rfl, .nil⟩
    | [_], he, _ => simp at he
    | a :: b :: rest, _, hn => exact absurd rfl (hn a b rest)

theorem pairs_all (t : List Char) (bytes : List UInt8) (h : Pairs t bytes) :
    (∀ c ∈ t, isAsciiHexdigit c = true) ∧ t.length = 2 * bytes.length := by
  induction h with
  | nil => simp
  | cons hi lo a b rest bytes h1 h2 h3 ih =>
    refine ⟨?_, by simp [ih.2]; omega⟩
    intro c hc
    rw [hexdigit_iff]
    simp only [List.mem_cons] at hc
    rcases hc with rfl | rfl | hc
    · rw [h1]; rfl
    · rw [h2]; rfl
    · rw [← hexdigit_iff]; exact ih.1 c hc

theorem pairs_unique (t : List Char) (b1 b2 : List UInt8) (h1 : Pairs t b1) (h2 : Pairs t b2) :
    b1 = b2 := by
  induction h1 generalizing b2 with
  | nil => cases h2; rfl
  | cons hi lo a b rest bytes e1 e2 h3 ih =>
    cases h2 with
    | cons _ _ a' b' _ bytes' f1 f2 h3' =>
      rw [e1] at f1; rw [e2] at f2
      injection f1 with f1; injection f2 with f2
      subst f1; subst f2
      rw [ih bytes' h3']

theorem pairs_one (t : List Char) (b : UInt8) : Pairs t [b] ↔ ∃ hi lo x y, t = [hi, lo] ∧
    hexDigit hi = some x ∧ hexDigit lo = some y ∧ b = UInt8.ofNat (16 * x + y) := by
  constructor
  · intro h
    cases h with
    | cons hi lo x y rest bytes h1 h2 h3 =>
      cases h3
      exact ⟨hi, lo, x, y, rfl, h1, h2, rfl⟩
  · rintro ⟨hi, lo, x, y, rfl, h1, h2, rfl⟩
    exact .cons hi lo x y [] [] h1 h2 .nil

theorem utf8Size_hex (c : Char) (h : isAsciiHexdigit c = true) : c.utf8Size = 1 := by
  revert h
  refine char_ascii (fun c => isAsciiHexdigit c = true → c.utf8Size = 1) (by decide +kernel) ?_ c
  intro c hc h
  unfold isAsciiHexdigit at h
  have e2 : ('9' : Char).toNat = 57 := rfl
  have e4 : ('f' : Char).toNat = 102 := rfl
  have e6 : ('F' : Char).toNat = 70 := rfl
  simp only [char_le_iff, Bool.or_eq_true, Bool.and_eq_true, decide_eq_true_eq] at h
  omega

theorem hex_sum (t : List Char) (h : t.all isAsciiHexdigit = true) :
    (t.map Char.utf8Size).sum = t.length := by
  induction t with
  | nil => rfl
  | cons c t ih =>
    simp only [List.all_cons, Bool.and_eq_true] at h
    simp only [List.map_cons, List.sum_cons, List.length_cons, ih h.2, utf8Size_hex c h.1]
    omega

/-- Without prefix. -/
theorem push_digits (digits : List Char) (i : Nat) :
    (∃ b, (if ((digits.map Char.utf8Size).sum ≠ 2 || !digits.all isAsciiHexdigit) = true then
        Res.err (HexError.invalidHex i)
      else match fromStrRadix16 digits with
        | some b => .ok b
        | none => .err (.invalidHex i)) = .ok b ∧ Pairs digits [b]) ∨
    ((if ((digits.map Char.utf8Size).sum ≠ 2 || !digits.all isAsciiHexdigit) = true then
        Res.err (HexError.invalidHex i)
      else match fromStrRadix16 digits with
        | some b => .ok b
        | none => .err (.invalidHex i)) = .err (.invalidHex i) ∧ ∀ b, ¬ Pairs digits [b]) := by
  split
  · rename_i hc
    right
    refine ⟨rfl, ?_⟩
    intro b hb
    obtain ⟨h1, h2⟩ := pairs_all _ _ hb
    have hall : digits.all isAsciiHexdigit = true := List.all_eq_true.2 h1
    rw [hex_sum _ hall, hall, h2] at hc
    simp at hc
  · rename_i hc
    simp only [ne_eq, Bool.or_eq_true, decide_eq_true_eq, Bool.not_eq_eq_eq_not, Bool.not_true, not_or,
      Decidable.not_not, Bool.not_eq_false] at hc
    obtain ⟨hs, hall⟩ := hc
    rw [hex_sum _ hall] at hs
    match digits, hs, hall with
    | [a, b], _, hall =>
      simp only [List.all_cons, List.all_nil, Bool.and_true, Bool.and_eq_true] at hall
      obtain ⟨ha, hb⟩ := hall
      rw [hexdigit_iff, Option.isSome_iff_exists] at ha hb
      obtain ⟨x, ha⟩ := ha
      obtain ⟨y, hb⟩ := hb
      left
      rw [fromStrRadix_pair a b x y ha hb]
      exact ⟨_, rfl, (pairs_one _ _).2 ⟨a, b, x, y, rfl, ha, hb, rfl⟩⟩

theorem not_hex_x : isAsciiHexdigit 'x' = false ∧ isAsciiHexdigit 'X' = false := by decide

theorem pushHexToken_cases (t : List Char) (i : Nat) :
    (∃ b, pushHexToken t i = .ok b ∧ ByteToken t b) ∨
    (pushHexToken t i = .err (.invalidHex i) ∧ ∀ b, ¬ ByteToken t b) := by
  unfold pushHexToken
  split
  · rename_i rest
    rcases push_digits rest i with ⟨b, h1, h2⟩ | ⟨h1, h2⟩
    · exact Or.inl ⟨b, h1, ['0', 'x'], rest, rfl, by simp, h2⟩
    · refine Or.inr ⟨h1, ?_⟩
      rintro b ⟨pre, ds, he, hp, hb⟩
      simp only [List.mem_cons, List.not_mem_nil, or_false] at hp
      rcases hp with rfl | rfl | rfl
      · rw [List.nil_append] at he
        have := (pairs_all _ _ hb).1 'x' (by rw [← he]; simp)
        simp [not_hex_x] at this
      · simp only [List.cons_append, List.nil_append, List.cons.injEq, true_and] at he
        subst he; exact h2 b hb
      · simp at he
  · rename_i rest
    rcases push_digits rest i with ⟨b, h1, h2⟩ | ⟨h1, h2⟩
    · exact Or.inl ⟨b, h1, ['0', 'X'], rest, rfl, by simp, h2⟩
    · refine Or.inr ⟨h1, ?_⟩
      rintro b ⟨pre, ds, he, hp, hb⟩
      simp only [List.mem_cons, List.not_mem_nil, or_false] at hp
      rcases hp with rfl | rfl | rfl
      · rw [List.nil_append] at he
        have := (pairs_all _ _ hb).1 'X' (by rw [← he]; simp)
        simp [not_hex_x] at this
      · simp at he
      · simp only [List.cons_append, List.nil_append, List.cons.injEq, true_and] at he
        subst he; exact h2 b hb
  · rename_i n1 n2
    rcases push_digits t i with ⟨b, h1, h2⟩ | ⟨h1, h2⟩
    · exact Or.inl ⟨b, h1, [], t, rfl, by simp, h2⟩
    · refine Or.inr ⟨h1, ?_⟩
      rintro b ⟨pre, ds, he, hp, hb⟩
      simp only [List.mem_cons, List.not_mem_nil, or_false] at hp
      rcases hp with rfl | rfl | rfl
      · rw [List.nil_append] at he; subst he; exact h2 b hb
      · exact n1 ds (by simpa using he)
      · exact n2 ds (by simpa using he)

theorem byteToken_unique (t : List Char) (a b : UInt8) (ha : ByteToken t a) (hb : ByteToken t b) : a = b := by
  rcases pushHexToken_cases t 0 with ⟨c, -, -⟩ | ⟨-, h⟩
  · obtain ⟨p1, d1, e1, m1, h1⟩ := ha
    obtain ⟨p2, d2, e2, m2, h2⟩ := hb
    have l1 := (pairs_all _ _ h1).2
    have l2 := (pairs_all _ _ h2).2
    have hd : d1 = d2 := by
      have hl : p1.length = p2.length := by
        have := congrArg List.length (e1.symm.trans e2)
        simp only [List.length_append, l1, l2, List.length_singleton] at this
        omega
      exact (List.append_inj (e1.symm.trans e2) hl).2
    subst hd
    have := pairs_unique _ _ _ h1 h2
    simpa using this
  · exact absurd ha (h a)

/-- Tokens are not empty and have no separators. -/
theorem byteToken_nosep (t : List Char) (b : UInt8) (h : ByteToken t b) :
    t ≠ [] ∧ ∀ c ∈ t, isHexSeparator c = false := by
  obtain ⟨pre, ds, rfl, hp, hd⟩ := h
  obtain ⟨hi, lo, x, y, rfl, h1, h2, -⟩ := (pairs_one _ _).1 hd
  refine ⟨by simp, ?_⟩
  intro c hc
  have hsep : ∀ c, c ∈ separators → hexDigit c = none := by decide
  have hnot : ∀ c x, hexDigit c = some x → isHexSeparator c = false := by
    intro c x hx
    cases hs : isHexSeparator c with
    | false => rfl
    | true => rw [hsep c ((separator_iff c).1 hs)] at hx; cases hx
  rcases List.mem_append.1 hc with hc | hc
  · simp only [List.mem_cons, List.not_mem_nil, or_false] at hp
    rcases hp with rfl | rfl | rfl
    · simp at hc
    · simp only [List.mem_cons, List.not_mem_nil, or_false] at hc
      rcases hc with rfl | rfl <;> decide
    · simp only [List.mem_cons, List.not_mem_nil, or_false] at hc
      rcases hc with rfl | rfl <;> decide
  · simp only [List.mem_cons, List.not_mem_nil, or_false] at hc
    rcases hc with rfl | rfl
    · exact hnot _ _ h1
    · exact hnot _ _ h2

/-- Reading the rest of a token. -/
theorem hexLoop_token (w : List Char) (hw : ∀ c ∈ w, isHexSeparator c = false) (rest : List Char) (i : Nat)
    (bytes : List UInt8) (token : List Char) (start : Nat) :
    hexLoop (w ++ rest) i bytes token start false =
      hexLoop rest (i + utf8Length w) bytes (token ++ w) start false := by
  induction w generalizing i token with
  | nil => simp [utf8Length]
  | cons c w ih =>
    rw [List.cons_append, hexLoop, if_neg (by rw [hw c (by simp)]; decide)]
    simp only [Bool.false_eq_true, if_false]
    rw [ih (fun c hc => hw c (by simp [hc]))]
    simp [utf8Length, Nat.add_assoc]

theorem hexLoop_start (c : Char) (w : List Char) (hw : ∀ x ∈ c :: w, isHexSeparator x = false)
    (rest : List Char) (i : Nat) (bytes : List UInt8) (start : Nat) :
    hexLoop (c :: w ++ rest) i bytes [] start true =
      hexLoop rest (i + utf8Length (c :: w)) bytes (c :: w) i false := by
  rw [List.cons_append, hexLoop, if_neg (by rw [hw c (by simp)]; decide)]
  simp only [if_true, List.nil_append]
  rw [hexLoop_token w (fun x hx => hw x (by simp [hx]))]
  simp [utf8Length, Nat.add_assoc]

/-- The first token of a text. -/
theorem first_token (c : Char) (rest : List Char) (h : isHexSeparator c = false) :
    ∃ w tail, rest = w ++ tail ∧ (∀ x ∈ c :: w, isHexSeparator x = false) ∧
      (tail = [] ∨ ∃ s tail', tail = s :: tail' ∧ isHexSeparator s = true) := by
  refine ⟨rest.takeWhile (fun x => !isHexSeparator x), rest.dropWhile (fun x => !isHexSeparator x),
    (List.takeWhile_append_dropWhile).symm, ?_, ?_⟩
  · intro x hx
    rcases List.mem_cons.1 hx with rfl | hx
    · exact h
    · have := (List.all_eq_true.1 (List.all_takeWhile (p := fun x => !isHexSeparator x) (l := rest))) x hx
      simpa using this
  · cases hd : rest.dropWhile (fun x => !isHexSeparator x) with
    | nil => exact Or.inl rfl
    | cons s tail' =>
      right
      refine ⟨s, tail', rfl, ?_⟩
      have := dropWhile_head_not (fun x => !isHexSeparator x) rest s (by rw [hd]; simp)
      simpa using this

theorem nosep_split (w tail t rest : List Char) (hw : ∀ x ∈ w, isHexSeparator x = false)
    (ht : ∀ x ∈ t, isHexSeparator x = false)
    (h1 : tail = [] ∨ ∃ s tail', tail = s :: tail' ∧ isHexSeparator s = true)
    (h2 : rest = [] ∨ ∃ s tail', rest = s :: tail' ∧ isHexSeparator s = true)
    (h : w ++ tail = t ++ rest) : w = t ∧ tail = rest := by
  induction w generalizing t with
  | nil =>
    cases t with
    | nil => exact ⟨rfl, h⟩
    | cons a t =>
      rcases h1 with rfl | ⟨s, tail', rfl, hs⟩
      · simp at h
      · simp only [List.nil_append, List.cons_append, List.cons.injEq] at h
        have := ht a (by simp)
        rw [← h.1, hs] at this
        simp at this
  | cons a w ih =>
    cases t with
    | nil =>
      rcases h2 with rfl | ⟨s, tail', rfl, hs⟩
      · simp at h
      · simp only [List.nil_append, List.cons_append, List.cons.injEq] at h
        have := hw a (by simp)
        rw [h.1, hs] at this
        simp at this
    | cons b t =>
      simp only [List.cons_append, List.cons.injEq] at h
      obtain ⟨r1, r2⟩ := ih t (fun x hx => hw x (by simp [hx])) (fun x hx => ht x (by simp [hx])) h.2
      exact ⟨by rw [h.1, r1], r2⟩

/-- What a text that begins with a token consists of. -/
theorem tokens_inv (w tail : List Char) (bytes : List UInt8) (hne : w ≠ [])
    (hw : ∀ x ∈ w, isHexSeparator x = false)
    (h1 : tail = [] ∨ ∃ s tail', tail = s :: tail' ∧ isHexSeparator s = true)
    (h : Tokens (w ++ tail) bytes) : ∃ b bs, bytes = b :: bs ∧ ByteToken w b ∧ Tokens tail bs := by
  generalize ht : w ++ tail = text at h
  cases h with
  | nil => exact absurd (List.append_eq_nil_iff.1 ht).1 hne
  | sep c rest _ hc _ =>
    cases w with
    | nil => exact absurd rfl hne
    | cons a w =>
      simp only [List.cons_append, List.cons.injEq] at ht
      have := hw a (by simp)
      rw [ht.1, (separator_iff c).2 hc] at this
      simp at this
  | last token b hb =>
    obtain ⟨rfl, rfl⟩ := nosep_split w tail text [] hw (byteToken_nosep _ _ hb).2 h1 (Or.inl rfl)
      (by rw [ht, List.append_nil])
    exact ⟨b, [], rfl, hb, .nil⟩
  | token t b c rest bs hb hc hr =>
    obtain ⟨rfl, rfl⟩ := nosep_split w tail t (c :: rest) hw (byteToken_nosep _ _ hb).2 h1
      (Or.inr ⟨c, rest, rfl, (separator_iff c).2 hc⟩) ht
    exact ⟨b, bs, rfl, hb, .sep c rest bs hc hr⟩

theorem tokens_sep (c : Char) (rest : List Char) (bytes : List UInt8) (hc : isHexSeparator c = true)
    (h : Tokens (c :: rest) bytes) : Tokens rest bytes := by
  generalize ht : c :: rest = text at h
  cases h with
  | nil => simp at ht
  | sep c' rest' _ hc' hr => injection ht with _ h2; rw [h2]; exact hr
  | last token b hb =>
    have := (byteToken_nosep _ _ hb).2 c (by rw [← ht]; simp)
    rw [hc] at this; simp at this
  | token t b c' rest' bs hb hc' hr =>
    obtain ⟨h1, h2⟩ := byteToken_nosep _ _ hb
    cases t with
    | nil => exact absurd rfl h1
    | cons a t =>
      simp only [List.cons_append, List.cons.injEq] at ht
      have := h2 a (by simp)
      rw [← ht.1, hc] at this; simp at this

theorem badToken_cons (pre text : List Char) (i : Nat) (bs : List UInt8) (h : BadToken text i)
    (hp : ∀ bytes before, Tokens before bytes → Tokens (pre ++ before) (bs ++ bytes))
    (hl : ∀ c ∈ pre.getLast?, c ∈ separators) : BadToken (pre ++ text) (utf8Length pre + i) := by
  obtain ⟨before, bad, after, bytes, rfl, h2, h3, h4, h5, h6, h7, rfl⟩ := h
  refine ⟨pre ++ before, bad, after, bs ++ bytes, by simp, hp _ _ h2, ?_, h4, h5, h6, h7,
    by simp [utf8Length]⟩
  intro c hc
  rw [List.getLast?_append] at hc
  cases hb : before.getLast? with
  | none => rw [hb] at hc; exact hl c (by simpa using hc)
  | some d => rw [hb] at hc; exact h3 c (by rw [hb]; simpa using hc)

theorem hexLoop_spec (n : Nat) (text : List Char) (hn : text.length ≤ n) (i : Nat) (bytes : List UInt8)
    (start : Nat) :
    (∃ new, Tokens text new ∧ hexLoop text i bytes [] start true =
      if (bytes ++ new).isEmpty then .err .emptyInput else .ok (bytes ++ new)) ∨
    ((∀ new, ¬ Tokens text new) ∧ ∃ j, BadToken text j ∧
      hexLoop text i bytes [] start true = .err (.invalidHex (i + j))) := by
  induction n generalizing text i bytes start with
  | zero =>
    have : text = [] := List.length_eq_zero_iff.1 (by omega)
    subst this
    left
    refine ⟨[], .nil, ?_⟩
    simp [hexLoop]
  | succ n ih =>
    cases text with
    | nil =>
      left
      refine ⟨[], .nil, ?_⟩
      simp [hexLoop]
    | cons c rest =>
      simp only [List.length_cons] at hn
      cases hc : isHexSeparator c with
      | true =>
        rw [hexLoop, if_pos hc]
        simp only [List.isEmpty_nil, if_true]
        rcases ih rest (by omega) (i + c.utf8Size) bytes start with ⟨new, h1, h2⟩ | ⟨h1, j, h2, h3⟩
        · exact Or.inl ⟨new, .sep _ _ _ ((separator_iff c).1 hc) h1, h2⟩
        · refine Or.inr ⟨fun new hnew => h1 new (tokens_sep _ _ _ hc hnew), c.utf8Size + j, ?_, ?_⟩
          · have := badToken_cons [c] rest j [] h2
              (fun bytes before hb => .sep _ _ _ ((separator_iff c).1 hc) hb)
              (by intro x hx; simp at hx; subst hx; exact (separator_iff _).1 hc)
            simpa [utf8Length] using this
          · rw [h3]; simp [Nat.add_assoc]
      | false =>
        obtain ⟨w, tail, rfl, hw, ht⟩ := first_token c rest hc
        have hcons : c :: (w ++ tail) = c :: w ++ tail := rfl
        rw [hcons, hexLoop_start c w hw]
        rcases pushHexToken_cases (c :: w) i with ⟨b, hb1, hb2⟩ | ⟨hb1, hb2⟩
        · rcases ht with rfl | ⟨s, tail', rfl, hs⟩
          · left
            refine ⟨[b], by rw [List.append_nil]; exact .last _ _ hb2, ?_⟩
            simp [hexLoop, hb1]
          · rw [hexLoop, if_pos hs]
            simp only [List.isEmpty_cons, Bool.false_eq_true, if_false, hb1, Res.bind_ok]
            have hsm := (separator_iff s).1 hs
            rcases ih tail' (by simp at hn; omega) (i + utf8Length (c :: w) + s.utf8Size) (bytes ++ [b]) i
              with ⟨new, h1, h2⟩ | ⟨h1, j, h2, h3⟩
            · left
              refine ⟨b :: new, .token _ _ _ _ _ hb2 hsm h1, ?_⟩
              rw [h2, List.append_assoc]; rfl
            · right
              refine ⟨?_, utf8Length (c :: w) + s.utf8Size + j, ?_, ?_⟩
              · intro new hnew
                obtain ⟨b', bs, -, -, h4⟩ := tokens_inv (c :: w) (s :: tail') new (by simp) hw
                  (Or.inr ⟨s, tail', rfl, hs⟩) hnew
                exact h1 bs (tokens_sep _ _ _ hs h4)
              · have := badToken_cons (c :: w ++ [s]) tail' j [b] h2
                  (fun bytes before hb => by
                    rw [List.append_assoc]; exact .token _ _ _ _ _ hb2 hsm hb)
                  (by intro x hx; rw [List.getLast?_append] at hx; simp at hx; subst hx; exact hsm)
                have e : utf8Length (c :: w ++ [s]) = utf8Length (c :: w) + s.utf8Size := by
                  simp [utf8Length, Nat.add_assoc]
                rw [e, List.append_assoc] at this
                exact this
              · rw [h3]; simp [Nat.add_assoc]
        · right
          refine ⟨?_, 0, ?_, ?_⟩
          · intro new hnew
            obtain ⟨b', bs, -, h3, -⟩ := tokens_inv (c :: w) tail new (by simp) hw ht hnew
            exact hb2 b' h3
          · refine ⟨[], c :: w, tail, [], by simp, .nil, by simp, by simp, ?_, ?_, hb2, rfl⟩
            · intro x hx hm
              have := hw x hx
              rw [(separator_iff x).2 hm] at this; simp at this
            · intro x hx
              rcases ht with rfl | ⟨s, tail', rfl, hs⟩
              · simp at hx
              · simp at hx; subst hx; exact (separator_iff _).1 hs
          · rcases ht with rfl | ⟨s, tail', rfl, hs⟩
            · simp [hexLoop, hb1]
            · rw [hexLoop, if_pos hs]
              simp [hb1]

theorem tokens_nil (bytes : List UInt8) (h : Tokens [] bytes) : bytes = [] := by
  generalize ht : ([] : List Char) = u at h
  cases h with
  | nil => rfl
  | sep => cases ht
  | last _ _ hb => subst ht; exact absurd rfl (byteToken_nosep _ _ hb).1
  | token => simp at ht

theorem tokens_unique (n : Nat) (text : List Char) (hn : text.length ≤ n) (b1 b2 : List UInt8)
    (h1 : Tokens text b1) (h2 : Tokens text b2) : b1 = b2 := by
  induction n generalizing text b1 b2 with
  | zero =>
    have : text = [] := List.length_eq_zero_iff.1 (by omega)
    subst this
    rw [tokens_nil _ h1, tokens_nil _ h2]
  | succ n ih =>
    cases text with
    | nil => rw [tokens_nil _ h1, tokens_nil _ h2]
    | cons c rest =>
      simp only [List.length_cons] at hn
      cases hc : isHexSeparator c with
      | true => exact ih rest (by omega) _ _ (tokens_sep _ _ _ hc h1) (tokens_sep _ _ _ hc h2)
      | false =>
        obtain ⟨w, tail, rfl, hw, ht⟩ := first_token c rest hc
        obtain ⟨b, bs, rfl, e1, e2⟩ := tokens_inv (c :: w) tail b1 (by simp) hw ht h1
        obtain ⟨b', bs', rfl, f1, f2⟩ := tokens_inv (c :: w) tail b2 (by simp) hw ht h2
        rw [byteToken_unique _ _ _ e1 f1, ih tail (by simp at hn; omega) _ _ e2 f2]

/-! ## the legacy parser -/

theorem chunks2_flatMap {α β : Type} (f : α → List β) (l : List α) (h : ∀ c ∈ l, (f c).length = 1) :
    chunks2 (l.flatMap f) = (chunks2 l).map (fun ch => ch.flatMap f) := by
  fun_induction chunks2 l with
  | case1 a b rest ih =>
    obtain ⟨x, hx⟩ := List.length_eq_one_iff.1 (h a (by simp))
    obtain ⟨y, hy⟩ := List.length_eq_one_iff.1 (h b (by simp))
    simp only [List.flatMap_cons, hx, hy, List.cons_append, List.nil_append, chunks2, List.map_cons,
      ih (fun c hc => h c (by simp [hc])), List.flatMap_nil]
  | case2 a =>
    obtain ⟨x, hx⟩ := List.length_eq_one_iff.1 (h a (by simp))
    simp [hx, chunks2]
  | case3 => rfl

theorem utf8_ascii (c : Char) (h : c.toNat < 128) : (String.utf8EncodeChar c).length = 1 := by
  rw [String.length_utf8EncodeChar]
  refine char_ascii (fun c => c.toNat < 128 → c.utf8Size = 1) (by decide +kernel) ?_ c h
  intro c h1 h2; omega

/-- The conversion of the cleaned text, if it is ASCII. -/
theorem convert_ascii (l : List Char) (h : ∀ c ∈ l, c.toNat < 128) :
    (chunks2 (l.flatMap String.utf8EncodeChar)).map (fun chunk =>
      (fromStrRadix16 ((fromUtf8 chunk).getD [])).getD 0) =
    (chunks2 l).map (fun chunk => (fromStrRadix16 chunk).getD 0) := by
  rw [chunks2_flatMap _ _ (fun c hc => utf8_ascii c (h c hc)), List.map_map]
  congr 1
  funext chunk
  have : fromUtf8 (chunk.flatMap String.utf8EncodeChar) = some chunk := (fromUtf8_iff _ _).2 rfl
  simp only [Function.comp_apply, this, Option.getD_some]

theorem remove0x_nox (l : List Char) (h : 'x' ∉ l) : remove0x l = l := by
  fun_induction remove0x l with
  | case1 rest ih => simp at h
  | case2 c rest hn ih => rw [ih (fun hm => h (by simp [hm]))]
  | case3 => rfl

theorem hexDigit_ascii (c : Char) (d : Nat) (h : hexDigit c = some d) : c.toNat < 128 ∧ c ≠ ' ' ∧ c ≠ ',' ∧
    c ≠ 'x' ∧ c ≠ '+' := by
  have hz : ∀ c ∈ [' ', ',', 'x', '+'], hexDigit c = none := by decide
  refine ⟨?_, ?_, ?_, ?_, ?_⟩
  · by_contra hc
    have h1 := hexdigit_iff c
    rw [h] at h1
    unfold isAsciiHexdigit at h1
    have e2 : ('9' : Char).toNat = 57 := rfl
    have e4 : ('f' : Char).toNat = 102 := rfl
    have e6 : ('F' : Char).toNat = 70 := rfl
    simp only [char_le_iff, Option.isSome_some, Bool.or_eq_true, Bool.and_eq_true, decide_eq_true_eq] at h1
    omega
  all_goals
    rintro rfl
    rw [hz _ (by decide)] at h
    cases h

end MBus
