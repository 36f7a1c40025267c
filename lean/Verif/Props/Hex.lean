import Verif.Lemmas.Hex
/-! C43, C44: the hexadecimal input parsers. -/
namespace MBus
open Spec

/-! ## C43 -/

theorem decode_cases (text : List Char) :
    (trim text = [] ∧ decodeHexBytes text = .err .emptyInput) ∨
    (trim text ≠ [] ∧ (∀ c ∈ trim text, isAsciiHexdigit c = true) ∧ (trim text).length % 2 ≠ 0 ∧
      decodeHexBytes text = .err (.invalidHex ((trim text).length - 1))) ∨
    (∃ bytes, bytes ≠ [] ∧ Pairs (trim text) bytes ∧ decodeHexBytes text = .ok bytes) ∨
    ((∃ c ∈ trim text, isAsciiHexdigit c = false) ∧
      decodeHexBytes text = hexLoop (trim text) 0 [] [] 0 true) := by
  unfold decodeHexBytes
  by_cases h1 : trim text = []
  · left; simp [h1]
  · simp only [List.isEmpty_iff, h1, if_false]
    by_cases h2 : (trim text).all isAsciiHexdigit = true
    · rw [if_pos h2]
      have h2' := List.all_eq_true.1 h2
      by_cases h3 : (trim text).length % 2 = 0
      · right; right; left
        obtain ⟨bytes, e1, e2⟩ := compactLoop_ok (trim text) 0 h2' h3
        refine ⟨bytes, ?_, e2, by simp [h3, e1]⟩
        rintro rfl
        have := (pairs_all _ _ e2).2
        exact h1 (List.length_eq_zero_iff.1 (by simpa using this))
      · right; left
        exact ⟨h1, h2', h3, by simp [h3]⟩
    · right; right; right
      rw [if_neg h2]
      refine ⟨?_, rfl⟩
      simpa using h2

/-- C43: the strict parser accepts exactly the texts that, without white space at the ends, are either
pairs of hexadecimal digits or byte tokens with separators, with at least one byte; and it returns these
bytes. -/
theorem C43_accepts_iff (text : List Char) (bytes : List UInt8) :
    decodeHexBytes text = .ok bytes ↔
      bytes ≠ [] ∧ ∃ t, Trimmed text t ∧ (Pairs t bytes ∨ Tokens t bytes) := by
  have htr : (∃ t, Trimmed text t ∧ (Pairs t bytes ∨ Tokens t bytes)) ↔
      (Pairs (trim text) bytes ∨ Tokens (trim text) bytes) := by
    constructor
    · rintro ⟨t, h1, h2⟩
      rw [(trimmed_iff _ _).1 h1]; exact h2
    · intro h; exact ⟨_, trimmed_trim text, h⟩
  rw [htr]
  have htok : ∀ t bs, (∀ c ∈ t, isAsciiHexdigit c = true) → Tokens t bs → bs ≠ [] → Pairs t bs := by
    intro t bs hall h hne
    have hnosep : ∀ c ∈ t, isHexSeparator c = false := by
      intro c hc
      have h1 := hall c hc
      cases hs : isHexSeparator c with
      | false => rfl
      | true =>
        have hd : ∀ c, c ∈ separators → isAsciiHexdigit c = false := by decide
        rw [hd c ((separator_iff c).1 hs)] at h1; cases h1
    cases t with
    | nil =>
      generalize ht : ([] : List Char) = t at h
      cases h with
      | nil => exact absurd rfl hne
      | sep => cases ht
      | last _ _ hb => subst ht; exact absurd rfl (byteToken_nosep _ _ hb).1
      | token => simp at ht
    | cons a t =>
      obtain ⟨b, bs', rfl, hb, hr⟩ := tokens_inv (a :: t) [] bs (by simp) hnosep (Or.inl rfl)
        (by rwa [List.append_nil])
      have hbs : bs' = [] := by
        generalize ht : ([] : List Char) = u at hr
        cases hr with
        | nil => rfl
        | sep => cases ht
        | last _ _ hb => subst ht; exact absurd rfl (byteToken_nosep _ _ hb).1
        | token => simp at ht
      subst hbs
      obtain ⟨pre, ds, he, hp, hd⟩ := hb
      simp only [List.mem_cons, List.not_mem_nil, or_false] at hp
      rcases hp with rfl | rfl | rfl
      · rw [he]; exact hd
      · have := hall 'x' (by rw [he]; simp)
        simp [not_hex_x] at this
      · have := hall 'X' (by rw [he]; simp)
        simp [not_hex_x] at this
  have hpairs : ∀ bs, Pairs (trim text) bs → ∀ c ∈ trim text, isAsciiHexdigit c = true :=
    fun bs h => (pairs_all _ _ h).1
  rcases decode_cases text with ⟨h1, h2⟩ | ⟨h1, h2, h3, h4⟩ | ⟨bs, h1, h2, h3⟩ | ⟨⟨c, hc, hx⟩, h2⟩
  · rw [h2]
    constructor
    · intro h; cases h
    · rintro ⟨hne, h⟩
      have hp : Pairs (trim text) bytes := by
        rcases h with h | h
        · exact h
        · exact htok _ _ (by rw [h1]; simp) h hne
      have := (pairs_all _ _ hp).2
      rw [h1] at this
      exact absurd (List.length_eq_zero_iff.1 (by simpa using this.symm)) hne
  · rw [h4]
    constructor
    · intro h; cases h
    · rintro ⟨hne, h⟩
      have hp : Pairs (trim text) bytes := by
        rcases h with h | h
        · exact h
        · exact htok _ _ h2 h hne
      have := (pairs_all _ _ hp).2
      omega
  · rw [h3]
    constructor
    · intro h
      injection h with h
      subst h
      exact ⟨h1, Or.inl h2⟩
    · rintro ⟨hne, h⟩
      have hp : Pairs (trim text) bytes := by
        rcases h with h | h
        · exact h
        · exact htok _ _ (hpairs _ h2) h hne
      rw [pairs_unique _ _ _ h2 hp]
  · rw [h2]
    have hnp : ¬ Pairs (trim text) bytes := fun h => by
      have := hpairs _ h c hc
      rw [hx] at this; cases this
    rcases hexLoop_spec _ (trim text) (Nat.le_refl _) 0 [] 0 with ⟨new, h3, h4⟩ | ⟨h3, j, h4, h5⟩
    · rw [h4, List.nil_append]
      constructor
      · intro h
        split at h
        · cases h
        · rename_i hne
          injection h with h
          subst h
          exact ⟨by simpa using hne, Or.inr h3⟩
      · rintro ⟨hne, h | h⟩
        · exact absurd h hnp
        · rw [tokens_unique _ _ (Nat.le_refl _) _ _ h3 h]
          simp [hne]
    · rw [h5]
      constructor
      · intro h; cases h
      · rintro ⟨hne, h | h⟩
        · exact absurd h hnp
        · exact absurd h (h3 _)

/-- C43: the strict parser reports empty input exactly for texts without bytes, that is texts that
consist of separators and of white space at the ends. -/
theorem C43_empty_iff (text : List Char) :
    decodeHexBytes text = .err .emptyInput ↔ ∃ t, Trimmed text t ∧ ∀ c ∈ t, c ∈ separators := by
  have htr : (∃ t, Trimmed text t ∧ ∀ c ∈ t, c ∈ separators) ↔ ∀ c ∈ trim text, c ∈ separators := by
    constructor
    · rintro ⟨t, h1, h2⟩
      rw [(trimmed_iff _ _).1 h1]; exact h2
    · intro h; exact ⟨_, trimmed_trim text, h⟩
  rw [htr]
  have hd : ∀ c, c ∈ separators → isAsciiHexdigit c = false := by decide
  have hseps : ∀ t : List Char, (∀ c ∈ t, c ∈ separators) → Tokens t [] := by
    intro t h
    induction t with
    | nil => exact .nil
    | cons c t ih => exact .sep c t [] (h c (by simp)) (ih (fun c hc => h c (by simp [hc])))
  have hback : ∀ (t : List Char) (bs : List UInt8), Tokens t bs → bs = [] → ∀ c ∈ t, c ∈ separators := by
    intro t bs h
    induction h with
    | nil => simp
    | sep c rest bs hc hr ih =>
      intro hb x hx
      rcases List.mem_cons.1 hx with rfl | hx
      · exact hc
      · exact ih hb x hx
    | last => intro hb; cases hb
    | token => intro hb; cases hb
  rcases decode_cases text with ⟨h1, h2⟩ | ⟨h1, h2, h3, h4⟩ | ⟨bs, h1, h2, h3⟩ | ⟨⟨c, hc, hx⟩, h2⟩
  · rw [h2, h1]; simp
  · rw [h4]
    constructor
    · intro h; cases h
    · intro h
      obtain ⟨c, hc⟩ := List.exists_mem_of_ne_nil _ h1
      have := h2 c hc
      rw [hd c (h c hc)] at this; cases this
  · rw [h3]
    constructor
    · intro h; cases h
    · intro h
      obtain ⟨e1, e2⟩ := pairs_all _ _ h2
      cases ht : trim text with
      | nil =>
        rw [ht] at e2
        exact absurd (List.length_eq_zero_iff.1 (by simpa using e2.symm)) h1
      | cons c t =>
        have := e1 c (by rw [ht]; simp)
        rw [hd c (h c (by rw [ht]; simp))] at this; cases this
  · rw [h2]
    rcases hexLoop_spec _ (trim text) (Nat.le_refl _) 0 [] 0 with ⟨new, h3, h4⟩ | ⟨h3, j, h4, h5⟩
    · rw [h4, List.nil_append]
      constructor
      · intro h
        split at h
        · rename_i hne
          exact hback _ _ h3 (by simpa using hne)
        · cases h
      · intro h
        rw [tokens_unique _ _ (Nat.le_refl _) _ _ h3 (hseps _ h)]
        rfl
    · rw [h5]
      constructor
      · intro h; cases h
      · intro h; exact absurd (hseps _ h) (h3 _)

/-- C43: every other text is rejected with a position: an odd number of hexadecimal digits at the last
digit, anything else at the first piece that is no byte token. -/
theorem C43_position (text : List Char) (i : Nat) (h : decodeHexBytes text = .err (.invalidHex i)) :
    ∃ t, Trimmed text t ∧
      (((∀ c ∈ t, (hexDigit c).isSome) ∧ t.length % 2 = 1 ∧ i + 1 = t.length) ∨ BadToken t i) := by
  refine ⟨_, trimmed_trim text, ?_⟩
  rcases decode_cases text with ⟨h1, h2⟩ | ⟨h1, h2, h3, h4⟩ | ⟨bs, h1, h2, h3⟩ | ⟨⟨c, hc, hx⟩, h2⟩
  · rw [h2] at h; cases h
  · left
    rw [h4] at h
    injection h with h
    injection h with h
    have : 0 < (trim text).length := List.length_pos_iff.2 h1
    refine ⟨fun c hc => ?_, by omega, by omega⟩
    rw [← hexdigit_iff]; exact h2 c hc
  · rw [h3] at h; cases h
  · rw [h2] at h
    right
    rcases hexLoop_spec _ (trim text) (Nat.le_refl _) 0 [] 0 with ⟨new, h3, h4⟩ | ⟨h3, j, h4, h5⟩
    · rw [h4] at h
      split at h <;> cases h
    · rw [h5] at h
      injection h with h
      injection h with h
      rw [Nat.zero_add] at h
      exact h ▸ h4

/-- C43: the strict parser never panics and never returns an empty list. -/
theorem C43_total (text : List Char) : decodeHexBytes text ≠ .panic ∧ decodeHexBytes text ≠ .ok [] := by
  refine ⟨?_, fun h => ((C43_accepts_iff _ _).1 h).1 rfl⟩
  rcases decode_cases text with ⟨h1, h2⟩ | ⟨h1, h2, h3, h4⟩ | ⟨bs, h1, h2, h3⟩ | ⟨⟨c, hc, hx⟩, h2⟩
  · rw [h2]; simp
  · rw [h4]; simp
  · rw [h3]; simp
  · rw [h2]
    rcases hexLoop_spec _ (trim text) (Nat.le_refl _) 0 [] 0 with ⟨new, h3, h4⟩ | ⟨h3, j, h4, h5⟩
    · rw [h4]; split <;> simp
    · rw [h5]; simp

theorem hexPair_pairs (upper : Bool) (b : UInt8) : ∃ hi lo x y, hexPair upper b = [hi, lo] ∧
    hexDigit hi = some x ∧ hexDigit lo = some y ∧ UInt8.ofNat (16 * x + y) = b := by
  have key : ∀ u : Bool, ∀ b : UInt8, (match hexPair u b with
      | [hi, lo] => match hexDigit hi, hexDigit lo with
        | some x, some y => UInt8.ofNat (16 * x + y) == b
        | _, _ => false
      | _ => false) = true := by decide +kernel
  have := key upper b
  revert this
  match hexPair upper b with
  | [] => simp
  | [_] => simp
  | _ :: _ :: _ :: _ => simp
  | [hi, lo] =>
    intro h
    dsimp only at h
    cases h1 : hexDigit hi with
    | none => rw [h1] at h; cases h
    | some x =>
      cases h2 : hexDigit lo with
      | none => rw [h1, h2] at h; cases h
      | some y => rw [h1, h2] at h; exact ⟨hi, lo, x, y, rfl, h1, h2, by simpa using h⟩

theorem not_ws_hex (c : Char) (h : (hexDigit c).isSome) : c.toNat ∉ whiteSpace := by
  obtain ⟨d, hd⟩ := Option.isSome_iff_exists.1 h
  intro hm
  have hw : ∀ n ∈ whiteSpace, hexDigit (Char.ofNat n) = none := by decide +kernel
  have := hw _ hm
  rw [Char.ofNat_toNat, hd] at this
  cases this

theorem trimmed_self (t : List Char) (h : ∀ c ∈ t, (hexDigit c).isSome) : Trimmed t t :=
  ⟨[], [], by simp, by simp, fun c hc => not_ws_hex c (h c (List.mem_of_mem_head? hc)),
    fun c hc => not_ws_hex c (h c (List.mem_of_mem_getLast? hc))⟩

theorem pairs_print (upper : UInt8 → Bool) (bytes : List UInt8) :
    Pairs (bytes.flatMap (fun b => hexPair (upper b) b)) bytes := by
  induction bytes with
  | nil => exact .nil
  | cons b bs ih =>
    obtain ⟨hi, lo, x, y, h1, h2, h3, h4⟩ := hexPair_pairs (upper b) b
    rw [List.flatMap_cons, h1]
    conv => arg 2; rw [← h4]
    exact .cons hi lo x y _ _ h2 h3 ih

/-- C43: printing bytes in hexadecimal, upper or lower case, without separators and parsing the text gives
the bytes. -/
theorem C43_compact_round_trip (upper : Bool) (bytes : List UInt8) (h : bytes ≠ []) :
    decodeHexBytes (bytes.flatMap (hexPair upper)) = .ok bytes := by
  have hp := pairs_print (fun _ => upper) bytes
  refine (C43_accepts_iff _ _).2 ⟨h, _, trimmed_self _ ?_, Or.inl hp⟩
  intro c hc
  rw [← hexdigit_iff]
  exact (pairs_all _ _ hp).1 c hc

/-- C43: the hexadecimal text the library prints is `hexPair`, so what it prints it can read. -/
theorem C43_hex_string (bytes : List UInt8) (h : bytes ≠ []) :
    hexString bytes = bytes.flatMap (hexPair true) ∧ decodeHexBytes (hexString bytes) = .ok bytes := by
  have he : hexString bytes = bytes.flatMap (hexPair true) := by
    unfold hexString
    congr 1
    funext b
    have : ∀ b : UInt8, [upperHexDigit (b.toNat / 16), upperHexDigit (b.toNat % 16)] = hexPair true b := by
      decide +kernel
    exact this b
  exact ⟨he, by rw [he]; exact C43_compact_round_trip true bytes h⟩

theorem token_no_ws (t : List Char) (b : UInt8) (h : ByteToken t b) : ∀ c ∈ t, c.toNat ∉ whiteSpace := by
  obtain ⟨pre, ds, rfl, hp, hd⟩ := h
  intro c hc
  rcases List.mem_append.1 hc with hc | hc
  · have hx : ∀ p ∈ ([[], ['0', 'x'], ['0', 'X']] : List (List Char)), ∀ c ∈ p, c.toNat ∉ whiteSpace := by
      decide
    exact hx pre hp c hc
  · refine not_ws_hex c ?_
    rw [← hexdigit_iff]
    exact (pairs_all _ _ hd).1 c hc

theorem tokens_drop_first (c : Char) (t : List Char) (bs : List UInt8) (h : Tokens (c :: t) bs)
    (hc : c.toNat ∈ whiteSpace) : Tokens t bs := by
  generalize ht : c :: t = text at h
  cases h with
  | nil => cases ht
  | sep c' rest _ _ hr => injection ht with _ h2; rw [h2]; exact hr
  | last token b hb => exact absurd hc (token_no_ws _ _ hb c (by rw [← ht]; simp))
  | token t' b c' rest bs hb hc' hr =>
    cases t' with
    | nil => exact absurd rfl (byteToken_nosep _ _ hb).1
    | cons a t' =>
      simp only [List.cons_append, List.cons.injEq] at ht
      exact absurd hc (token_no_ws _ _ hb c (by rw [ht.1]; simp))

theorem tokens_drop_last (c : Char) (text : List Char) (bs : List UInt8) (h : Tokens text bs)
    (hc : c.toNat ∈ whiteSpace) (t : List Char) (ht : text = t ++ [c]) : Tokens t bs := by
  induction h generalizing t with
  | nil => simp at ht
  | sep c' rest bs hs hr ih =>
    cases t with
    | nil =>
      simp only [List.nil_append, List.cons.injEq] at ht
      rw [ht.2] at hr; exact hr
    | cons a t =>
      simp only [List.cons_append, List.cons.injEq] at ht
      exact .sep _ _ _ (ht.1 ▸ hs) (ih t ht.2)
  | last token b hb => exact absurd hc (token_no_ws _ _ hb c (by rw [ht]; simp))
  | token t' b c' rest bs hb hc' hr ih =>
    rcases List.eq_nil_or_concat rest with rfl | ⟨rest', d, rfl⟩
    · have := List.append_inj' ht rfl
      rw [tokens_nil _ hr, ← this.1]
      exact .last _ _ hb
    · rw [List.concat_eq_append] at ht hr ih
      have hr' : t' ++ c' :: (rest' ++ [d]) = (t' ++ c' :: rest') ++ [d] := by simp
      rw [hr'] at ht
      have := List.append_inj' ht rfl
      have hd : d = c := by simpa using this.2
      subst hd
      rw [← this.1]
      exact .token _ _ _ _ _ hb hc' (ih rest' rfl)

/-- White space at the ends of byte tokens can be dropped. -/
theorem tokens_trim (text : List Char) (bs : List UInt8) (h : Tokens text bs) :
    ∃ t, Trimmed text t ∧ Tokens t bs := by
  refine ⟨trim text, trimmed_trim text, ?_⟩
  obtain ⟨l, r, he, hw, -, -⟩ := trimmed_trim text
  generalize trim text = t at he
  subst he
  have h1 : Tokens (t ++ r) bs := by
    rw [List.append_assoc] at h
    induction l with
    | nil => exact h
    | cons c l ih =>
      exact ih (fun x hx => hw x (by simp at hx ⊢; tauto)) (tokens_drop_first c _ _ h (hw c (by simp)))
  clear h
  induction r using List.reverseRecOn with
  | nil => rwa [List.append_nil] at h1
  | append_singleton r c ih =>
    refine ih (fun x hx => hw x (by simp at hx ⊢; tauto)) ?_
    rw [← List.append_assoc] at h1
    exact tokens_drop_last c _ _ h1 (hw c (by simp)) _ rfl

/-- C43: the same with byte tokens: each byte upper or lower case, with or without 0x, followed by any
positive number of separators (which may be missing at the end). -/
theorem C43_token_round_trip (items : List (UInt8 × Bool × List Char × List Char)) (hne : items ≠ [])
    (h : ∀ it ∈ items, it.2.2.1 ∈ [[], ['0', 'x'], ['0', 'X']] ∧ it.2.2.2 ≠ [] ∧
      ∀ c ∈ it.2.2.2, c ∈ separators) :
    decodeHexBytes (items.flatMap (fun it => it.2.2.1 ++ hexPair it.2.1 it.1 ++ it.2.2.2)) =
      .ok (items.map (·.1)) := by
  have hseps : ∀ (s t : List Char) (bs : List UInt8), (∀ c ∈ s, c ∈ separators) → Tokens t bs →
      Tokens (s ++ t) bs := by
    intro s t bs hs ht
    induction s with
    | nil => exact ht
    | cons c s ih => exact .sep c _ _ (hs c (by simp)) (ih (fun c hc => hs c (by simp [hc])))
  have key : Tokens (items.flatMap (fun it => it.2.2.1 ++ hexPair it.2.1 it.1 ++ it.2.2.2))
      (items.map (·.1)) := by
    clear hne
    induction items with
    | nil => exact .nil
    | cons it items ih =>
      obtain ⟨h1, h2, h3⟩ := h it (by simp)
      obtain ⟨hi, lo, x, y, e1, e2, e3, e4⟩ := hexPair_pairs it.2.1 it.1
      have hb : ByteToken (it.2.2.1 ++ hexPair it.2.1 it.1) it.1 :=
        ⟨_, _, rfl, h1, (pairs_one _ _).2 ⟨hi, lo, x, y, e1, e2, e3, e4.symm⟩⟩
      have ih := ih (fun it hit => h it (by simp [hit]))
      rw [List.flatMap_cons, List.map_cons]
      cases hs : it.2.2.2 with
      | nil => exact absurd hs h2
      | cons c s =>
        rw [List.append_assoc]
        rw [hs] at h3
        exact .token _ _ c _ _ hb (h3 c (by simp)) (hseps s _ _ (fun c hc => h3 c (by simp [hc])) ih)
  obtain ⟨t, h1, h2⟩ := tokens_trim _ _ key
  exact (C43_accepts_iff _ _).2 ⟨by simpa using hne, t, h1, Or.inr h2⟩

/-- Non-vacuous cases: the three spellings, and the three kinds of rejection. -/
example : decodeHexBytes "683D".toList = .ok [0x68, 0x3D] ∧
    decodeHexBytes " 0x68:\t3d--0X16 ".toList = .ok [0x68, 0x3D, 0x16] ∧
    decodeHexBytes "123".toList = .err (.invalidHex 2) ∧
    decodeHexBytes "68 3".toList = .err (.invalidHex 3) ∧
    decodeHexBytes "é8 3D".toList = .err (.invalidHex 0) ∧
    decodeHexBytes "68 é8 3g".toList = .err (.invalidHex 3) ∧
    decodeHexBytes ": -".toList = .err .emptyInput := by decide +kernel

/-! ## C44 -/

theorem pairs_convert (l : List Char) (bytes : List UInt8) (h : Pairs l bytes) :
    (chunks2 l).map (fun chunk => (fromStrRadix16 chunk).getD 0) = bytes := by
  induction h with
  | nil => rfl
  | cons hi lo a b rest bytes h1 h2 _ ih =>
    simp only [chunks2, List.map_cons, ih, fromStrRadix_pair hi lo a b h1 h2, Option.getD_some]

theorem listing_head (l : List Char) (bytes : List UInt8) (h : Listing l bytes) : l.head? ≠ some 'x' := by
  cases h with
  | nil => simp
  | noise c rest _ hc _ =>
    simp only [List.mem_cons, List.not_mem_nil, or_false] at hc
    rcases hc with rfl | rfl <;> simp
  | byte pre digits b rest bytes hp hd hr =>
    simp only [List.mem_cons, List.not_mem_nil, or_false] at hp
    rcases hp with rfl | rfl
    · obtain ⟨hi, lo, x, y, rfl, h1, h2, -⟩ := (pairs_one _ _).1 hd
      have := (hexDigit_ascii hi x h1).2.2.2.1
      simpa using this
    · simp

theorem listing_clean (l : List Char) (bytes : List UInt8) (h : Listing l bytes) :
    Pairs ((remove0x l).filter (fun c => !(c == ' ' || c == ',' || c == 'x'))) bytes := by
  induction h with
  | nil => exact .nil
  | noise c rest bytes hc _ ih =>
    simp only [List.mem_cons, List.not_mem_nil, or_false] at hc
    rcases hc with rfl | rfl
    · rw [remove0x]
      · simpa using ih
      · simp
    · rw [remove0x]
      · simpa using ih
      · simp
  | byte pre digits b rest bytes hp hd hr ih =>
    obtain ⟨hi, lo, x, y, rfl, h1, h2, rfl⟩ := (pairs_one _ _).1 hd
    have a1 := hexDigit_ascii hi x h1
    have a2 := hexDigit_ascii lo y h2
    have hh := listing_head _ _ hr
    have hrem : remove0x (hi :: lo :: rest) = hi :: lo :: remove0x rest := by
      rw [remove0x, remove0x]
      · intro r e1 e2
        rw [e2] at hh; simp at hh
      · intro r e1 e2
        injection e2 with e2 _
        exact a2.2.2.2.1 e2
    have hf : ∀ t : List Char, (hi :: lo :: t).filter (fun c => !(c == ' ' || c == ',' || c == 'x')) =
        hi :: lo :: t.filter (fun c => !(c == ' ' || c == ',' || c == 'x')) := by
      intro t
      rw [List.filter_cons, if_pos (by simp [a1.2]), List.filter_cons, if_pos (by simp [a2.2])]
    have hall : remove0x (pre ++ [hi, lo] ++ rest) = hi :: lo :: remove0x rest := by
      simp only [List.mem_cons, List.not_mem_nil, or_false] at hp
      rcases hp with rfl | rfl
      · exact hrem
      · change remove0x ('0' :: 'x' :: hi :: lo :: rest) = _
        rw [remove0x, hrem]
    rw [hall, hf]
    exact .cons hi lo x y _ _ h1 h2 ih

/-- C44: the legacy parser inverts hexadecimal listings of bytes. -/
theorem C44_inverts (text t : List Char) (bytes : List UInt8) (ht : Trimmed text t) (h : Listing t bytes) :
    cleanAndConvert text = bytes := by
  have hp := listing_clean t bytes h
  unfold cleanAndConvert
  rw [(trimmed_iff _ _).1 ht]
  simp only
  rw [convert_ascii]
  · exact pairs_convert _ _ hp
  · intro c hc
    have := (pairs_all _ _ hp).1 c hc
    rw [hexdigit_iff] at this
    obtain ⟨d, hd⟩ := Option.isSome_iff_exists.1 this
    exact (hexDigit_ascii c d hd).1

/-- C44: printing bytes in hexadecimal with the library's own printer and parsing the text gives the
bytes. -/
theorem C44_round_trip (bytes : List UInt8) : cleanAndConvert (hexString bytes) = bytes := by
  by_cases h : bytes = []
  · subst h; rfl
  have hp := pairs_print (fun _ => true) bytes
  rw [(C43_hex_string bytes h).1]
  refine C44_inverts _ (bytes.flatMap (hexPair true)) bytes (trimmed_self _ ?_) ?_
  · intro c hc
    rw [← hexdigit_iff]
    exact (pairs_all _ _ hp).1 c hc
  · clear h hp
    induction bytes with
    | nil => exact .nil
    | cons b bs ih =>
      obtain ⟨hi, lo, x, y, e1, e2, e3, e4⟩ := hexPair_pairs true b
      rw [List.flatMap_cons]
      exact .byte [] _ b _ _ (by simp) ((pairs_one _ _).2 ⟨hi, lo, x, y, e1, e2, e3, e4.symm⟩) ih

theorem lenient_eq (a b : Char) : (fromStrRadix16 [a, b]).getD 0 = lenientByte a b := by
  unfold lenientByte
  cases ha : hexDigit a with
  | some x =>
    cases hb : hexDigit b with
    | some y => rw [fromStrRadix_pair a b x y ha hb]; rfl
    | none =>
      have hp := (hexDigit_ascii a x ha).2.2.2.2
      have hx := hexDigit_lt a x ha
      unfold fromStrRadix16
      split
      · simp_all
      · simp_all
      · simp_all
      · simp_all
      · simp only [radixLoop, toDigit16_eq, ha, hb]
        rw [if_neg (by omega)]
        rfl
  | none =>
    by_cases hp : a = '+'
    · subst hp
      change (Option.map UInt8.ofNat (radixLoop [b] 0)).getD 0 = _
      simp only [radixLoop, toDigit16_eq, if_true]
      cases hb : hexDigit b with
      | none => rfl
      | some y =>
        have := hexDigit_lt b y hb
        simp only
        rw [if_neg (by omega)]
        simp
    · have : fromStrRadix16 [a, b] = none := by
        unfold fromStrRadix16
        split
        · rfl
        · rfl
        · rfl
        · simp_all
        · simp only [radixLoop, toDigit16_eq, ha]
          rfl
      rw [this]
      cases hexDigit b with
      | none => rfl
      | some y => simp [hp]

/-- C44: every pair of characters becomes one byte, 0 for nearly every invalid pair, and no error is ever
reported: for every ASCII text that has no blank, comma or x and no white space at its ends. -/
theorem C44_lenient (pairs : List (Char × Char))
    (h : ∀ p ∈ pairs, ∀ c ∈ [p.1, p.2], c.toNat < 128 ∧ c.toNat ∉ whiteSpace ∧ c ≠ ',' ∧ c ≠ 'x') :
    cleanAndConvert (pairs.flatMap (fun p => [p.1, p.2])) = pairs.map (fun p => lenientByte p.1 p.2) := by
  have hc : ∀ c ∈ pairs.flatMap (fun p => [p.1, p.2]),
      c.toNat < 128 ∧ c.toNat ∉ whiteSpace ∧ c ≠ ',' ∧ c ≠ 'x' := by
    intro c hc
    obtain ⟨p, hp, hm⟩ := List.mem_flatMap.1 hc
    exact h p hp c hm
  have ht : trim (pairs.flatMap (fun p => [p.1, p.2])) = pairs.flatMap (fun p => [p.1, p.2]) :=
    (trimmed_iff _ _).1 ⟨[], [], by simp, by simp,
      fun c h => (hc c (List.mem_of_mem_head? h)).2.1, fun c h => (hc c (List.mem_of_mem_getLast? h)).2.1⟩
  unfold cleanAndConvert
  rw [ht, remove0x_nox _ (fun hm => (hc 'x' hm).2.2.2 rfl), List.filter_eq_self.2]
  · simp only
    rw [convert_ascii _ (fun c h => (hc c h).1)]
    clear h hc ht
    induction pairs with
    | nil => rfl
    | cons p ps ih =>
      rw [List.flatMap_cons]
      simp only [List.cons_append, List.nil_append, chunks2, List.map_cons, ih, lenient_eq]
  · intro c hm
    have h1 := hc c hm
    have : c ≠ ' ' := by rintro rfl; exact h1.2.1 (by decide)
    simp [this, h1.2.2.1, h1.2.2.2]

/-- C44: so distinct texts give the same bytes: any two invalid pairs do. -/
theorem C44_collapse : ∃ t1 t2 : List Char, t1 ≠ t2 ∧ cleanAndConvert t1 = cleanAndConvert t2 ∧
    decodeHexBytes t1 ≠ decodeHexBytes t2 := by
  refine ⟨"6z".toList, "00".toList, by decide, ?_, by decide +kernel⟩
  rw [show "6z".toList = [('6', 'z')].flatMap (fun p => [p.1, p.2]) by decide,
    show "00".toList = [('0', '0')].flatMap (fun p => [p.1, p.2]) by decide,
    C44_lenient _ (by decide), C44_lenient _ (by decide)]
  decide

/-- C44: where the strict parser reads byte tokens separated by blanks, with or without 0x, the legacy
parser reads the same bytes. -/
theorem C44_agrees_with_strict (text : List Char) (bytes : List UInt8) (h : decodeHexBytes text = .ok bytes)
    (hs : ∀ c ∈ separators, c ∈ text → c = ' ') (hx : 'X' ∉ text) : cleanAndConvert text = bytes := by
  obtain ⟨hne, t, ht, hp⟩ := (C43_accepts_iff _ _).1 h
  refine C44_inverts text t bytes ht ?_
  have hsub : ∀ c ∈ t, c ∈ text := by
    obtain ⟨l, r, rfl, -⟩ := ht
    intro c hc; simp [hc]
  have hs' : ∀ c ∈ separators, c ∈ t → c = ' ' := fun c h1 h2 => hs c h1 (hsub c h2)
  have hx' : 'X' ∉ t := fun hm => hx (hsub _ hm)
  clear hs hx hsub ht h hne
  rcases hp with hp | hp
  · induction hp with
    | nil => exact .nil
    | cons hi lo a b rest bs h1 h2 _ ih =>
      exact .byte [] [hi, lo] _ rest bs (by simp) ((pairs_one _ _).2 ⟨hi, lo, a, b, rfl, h1, h2, rfl⟩)
        (ih (fun c h1 h2 => hs' c h1 (by simp [h2])) (fun hm => hx' (by simp [hm])))
  · induction hp with
    | nil => exact .nil
    | sep c rest bs hc _ ih =>
      exact .noise c rest bs (by rw [hs' c hc (by simp)]; simp)
        (ih (fun c h1 h2 => hs' c h1 (by simp [h2])) (fun hm => hx' (by simp [hm])))
    | last token b hb =>
      obtain ⟨pre, ds, rfl, hp, hd⟩ := hb
      have := Listing.byte pre ds b [] [] ?_ hd .nil
      · rwa [List.append_nil] at this
      · simp only [List.mem_cons, List.not_mem_nil, or_false] at hp ⊢
        rcases hp with rfl | rfl | rfl
        · simp
        · simp
        · simp at hx'
    | token token b c rest bs hb hc _ ih =>
      obtain ⟨pre, ds, rfl, hp, hd⟩ := hb
      refine Listing.byte pre ds b (c :: rest) bs ?_ hd (.noise c rest bs ?_ (ih ?_ ?_))
      · simp only [List.mem_cons, List.not_mem_nil, or_false] at hp ⊢
        rcases hp with rfl | rfl | rfl
        · simp
        · simp
        · simp at hx'
      · rw [hs' c hc (by simp)]; simp
      · exact fun c h1 h2 => hs' c h1 (by simp [h2])
      · exact fun hm => hx' (by simp [hm])

/-- C44: the other separators of the strict parser are misread: lines of bytes give other bytes. -/
theorem C44_newline : decodeHexBytes "68\n3D".toList = .ok [0x68, 0x3D] ∧
    cleanAndConvert "68\n3D".toList = [0x68, 0x00, 0x0D] := by
  constructor
  · decide +kernel
  · have : cleanAndConvert "68\n3D".toList = (chunks2 "68\n3D".toList).map
        (fun chunk => (fromStrRadix16 chunk).getD 0) := by
      unfold cleanAndConvert
      have ht : trim "68\n3D".toList = "68\n3D".toList := by decide +kernel
      have hf : (remove0x "68\n3D".toList).filter (fun c => !(c == ' ' || c == ',' || c == 'x')) =
        "68\n3D".toList := by decide +kernel
      simp only
      rw [ht, hf]
      exact convert_ascii _ (by decide)
    rw [this]
    decide +kernel

example : Listing ['0', 'x', '6', '8', ',', ' ', '3', 'd'] [0x68, 0x3D] :=
  .byte ['0', 'x'] ['6', '8'] 0x68 _ _ (by simp) (.cons '6' '8' 6 8 [] [] (by decide) (by decide) .nil)
    (.noise _ _ _ (by simp) (.noise _ _ _ (by simp)
      (.byte [] ['3', 'd'] 0x3D [] _ (by simp) (.cons '3' 'd' 3 13 [] [] (by decide) (by decide) .nil) .nil)))

end MBus
