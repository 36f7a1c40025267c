import Verif.Spec.Aes
/-!
# AES-128: the inverse cipher inverts the cipher
-/
namespace MBus.Spec.Aes

/-- A statement about all bytes, from the 256 cases. -/
theorem byte_forall {p : UInt8 → Prop} (h : ∀ n : Fin 256, p (UInt8.ofNat n)) (b : UInt8) : p b := by
  have := h ⟨b.toNat, b.toNat_lt⟩
  simpa using this

theorem invSbox_sbox (b : UInt8) : invSbox (sbox b) = b := by
  revert b; exact byte_forall (by decide +kernel)

theorem top_bit (b : UInt8) : b >>> 7 = 0 ∨ b >>> 7 = 1 := by
  revert b; exact byte_forall (by decide +kernel)

theorem xor_shuffle (c x y : UInt8) : (x ^^^ c) ^^^ (y ^^^ c) = x ^^^ y := by
  have : (x ^^^ c) ^^^ (y ^^^ c) = (x ^^^ y) ^^^ (c ^^^ c) := by ac_rfl
  rw [this, UInt8.xor_self, UInt8.xor_zero]

theorem xtime_xor (a b : UInt8) : xtime (a ^^^ b) = xtime a ^^^ xtime b := by
  have h1 : (a ^^^ b) <<< (1 : UInt8) = (a <<< 1) ^^^ (b <<< 1) := by
    exact UInt8.shiftLeft_xor
  have h2 : (a ^^^ b) >>> (7 : UInt8) = (a >>> 7) ^^^ (b >>> 7) := by
    exact UInt8.shiftRight_xor
  unfold xtime
  rw [h1, h2]
  rcases top_bit a with ha | ha <;> rcases top_bit b with hb | hb <;> rw [ha, hb] <;> simp [xor_shuffle] <;> ac_rfl

theorem times_xor (k : Nat) (a b : UInt8) : times k (a ^^^ b) = times k a ^^^ times k b := by
  unfold times
  simp only [xtime_xor]
  cases k.testBit 0 <;> cases k.testBit 1 <;> cases k.testBit 2 <;> cases k.testBit 3 <;> simp <;> ac_rfl

theorem length16 {s : List UInt8} (h : s.length = 16) :
    ∃ a0 a1 a2 a3 b0 b1 b2 b3 c0 c1 c2 c3 d0 d1 d2 d3,
      s = [a0, a1, a2, a3, b0, b1, b2, b3, c0, c1, c2, c3, d0, d1, d2, d3] := by
  match s, h with
  | [a0, a1, a2, a3, b0, b1, b2, b3, c0, c1, c2, c3, d0, d1, d2, d3], _ =>
    exact ⟨_, _, _, _, _, _, _, _, _, _, _, _, _, _, _, _, rfl⟩

/-- Two circulant matrices whose product is the identity. -/
theorem sixteen (A00 A01 A02 A03 A10 A11 A12 A13 A20 A21 A22 A23 A30 A31 A32 A33 : UInt8) :
    (A00 ^^^ A01 ^^^ A02 ^^^ A03) ^^^ (A10 ^^^ A11 ^^^ A12 ^^^ A13) ^^^ (A20 ^^^ A21 ^^^ A22 ^^^ A23) ^^^
      (A30 ^^^ A31 ^^^ A32 ^^^ A33) =
    (A00 ^^^ A10 ^^^ A20 ^^^ A30) ^^^ (A01 ^^^ A11 ^^^ A21 ^^^ A31) ^^^ (A02 ^^^ A12 ^^^ A22 ^^^ A32) ^^^
      (A03 ^^^ A13 ^^^ A23 ^^^ A33) := by
  ac_rfl

theorem row_zero (p q r s p' q' r' s' : Nat) (a b c d : UInt8)
    (h0 : ∀ x, times p (times p' x) ^^^ times q (times s' x) ^^^ times r (times r' x) ^^^
      times s (times q' x) = x)
    (h1 : ∀ x, times p (times q' x) ^^^ times q (times p' x) ^^^ times r (times s' x) ^^^
      times s (times r' x) = 0)
    (h2 : ∀ x, times p (times r' x) ^^^ times q (times q' x) ^^^ times r (times p' x) ^^^
      times s (times s' x) = 0)
    (h3 : ∀ x, times p (times s' x) ^^^ times q (times r' x) ^^^ times r (times q' x) ^^^
      times s (times p' x) = 0) :
    column p q r s
      (times p' a ^^^ times q' b ^^^ times r' c ^^^ times s' d)
      (times s' a ^^^ times p' b ^^^ times q' c ^^^ times r' d)
      (times r' a ^^^ times s' b ^^^ times p' c ^^^ times q' d)
      (times q' a ^^^ times r' b ^^^ times s' c ^^^ times p' d) = [a, b, c, d] := by
  have e0 : ∀ x, times s (times p' x) ^^^ times p (times s' x) ^^^ times q (times r' x) ^^^
      times r (times q' x) = 0 := fun x => by rw [← h3 x]; ac_rfl
  have e1 : ∀ x, times s (times q' x) ^^^ times p (times p' x) ^^^ times q (times s' x) ^^^
      times r (times r' x) = x := fun x => by refine Eq.trans ?_ (h0 x); ac_rfl
  have e2 : ∀ x, times s (times r' x) ^^^ times p (times q' x) ^^^ times q (times p' x) ^^^
      times r (times s' x) = 0 := fun x => by rw [← h1 x]; ac_rfl
  have e3 : ∀ x, times s (times s' x) ^^^ times p (times r' x) ^^^ times q (times q' x) ^^^
      times r (times p' x) = 0 := fun x => by rw [← h2 x]; ac_rfl
  have f0 : ∀ x, times r (times p' x) ^^^ times s (times s' x) ^^^ times p (times r' x) ^^^
      times q (times q' x) = 0 := fun x => by rw [← h2 x]; ac_rfl
  have f1 : ∀ x, times r (times q' x) ^^^ times s (times p' x) ^^^ times p (times s' x) ^^^
      times q (times r' x) = 0 := fun x => by rw [← h3 x]; ac_rfl
  have f2 : ∀ x, times r (times r' x) ^^^ times s (times q' x) ^^^ times p (times p' x) ^^^
      times q (times s' x) = x := fun x => by refine Eq.trans ?_ (h0 x); ac_rfl
  have f3 : ∀ x, times r (times s' x) ^^^ times s (times r' x) ^^^ times p (times q' x) ^^^
      times q (times p' x) = 0 := fun x => by rw [← h1 x]; ac_rfl
  have g0 : ∀ x, times q (times p' x) ^^^ times r (times s' x) ^^^ times s (times r' x) ^^^
      times p (times q' x) = 0 := fun x => by rw [← h1 x]; ac_rfl
  have g1 : ∀ x, times q (times q' x) ^^^ times r (times p' x) ^^^ times s (times s' x) ^^^
      times p (times r' x) = 0 := fun x => by rw [← h2 x]; ac_rfl
  have g2 : ∀ x, times q (times r' x) ^^^ times r (times q' x) ^^^ times s (times p' x) ^^^
      times p (times s' x) = 0 := fun x => by rw [← h3 x]; ac_rfl
  have g3 : ∀ x, times q (times s' x) ^^^ times r (times r' x) ^^^ times s (times q' x) ^^^
      times p (times p' x) = x := fun x => by refine Eq.trans ?_ (h0 x); ac_rfl
  unfold column
  simp only [times_xor, sixteen]
  simp only [h0, h1, h2, h3, e0, e1, e2, e3, f0, f1, f2, f3, g0, g1, g2, g3, UInt8.xor_zero, UInt8.zero_xor]

theorem columns_inverse (p q r s p' q' r' s' : Nat)
    (h0 : ∀ x, times p (times p' x) ^^^ times q (times s' x) ^^^ times r (times r' x) ^^^
      times s (times q' x) = x)
    (h1 : ∀ x, times p (times q' x) ^^^ times q (times p' x) ^^^ times r (times s' x) ^^^
      times s (times r' x) = 0)
    (h2 : ∀ x, times p (times r' x) ^^^ times q (times q' x) ^^^ times r (times p' x) ^^^
      times s (times s' x) = 0)
    (h3 : ∀ x, times p (times s' x) ^^^ times q (times r' x) ^^^ times r (times q' x) ^^^
      times s (times p' x) = 0) (st : List UInt8) (hst : st.length = 16) :
    columns p q r s (columns p' q' r' s' st) = st := by
  obtain ⟨a0, a1, a2, a3, b0, b1, b2, b3, c0, c1, c2, c3, d0, d1, d2, d3, rfl⟩ := length16 hst
  have k := fun a b c d => (row_zero p q r s p' q' r' s' a b c d h0 h1 h2 h3)
  show column _ _ _ _ _ _ _ _ ++ column _ _ _ _ _ _ _ _ ++ column _ _ _ _ _ _ _ _ ++
    column _ _ _ _ _ _ _ _ = _
  rw [k, k, k, k]
  rfl

theorem inv_mix (st : List UInt8) (h : st.length = 16) : invMixColumns (mixColumns st) = st := by
  refine columns_inverse 14 11 13 9 2 3 1 1 ?_ ?_ ?_ ?_ st h <;> exact byte_forall (by decide +kernel)

theorem inv_shift (st : List UInt8) (h : st.length = 16) : invShiftRows (shiftRows st) = st := by
  obtain ⟨a0, a1, a2, a3, b0, b1, b2, b3, c0, c1, c2, c3, d0, d1, d2, d3, rfl⟩ := length16 h
  rfl

theorem inv_sub (st : List UInt8) : invSubBytes (subBytes st) = st := by
  simp [invSubBytes, subBytes, Function.comp_def, invSbox_sbox]

theorem add_add (k st : List UInt8) (h : st.length ≤ k.length) : addRoundKey k (addRoundKey k st) = st := by
  unfold addRoundKey
  induction st generalizing k with
  | nil => simp
  | cons x xs ih =>
    cases k with
    | nil => simp at h
    | cons y ys =>
      simp only [List.zipWith_cons_cons, UInt8.xor_assoc, UInt8.xor_self, UInt8.xor_zero]
      rw [ih ys (by simpa using h)]

theorem shiftRows_length (st : List UInt8) : (shiftRows st).length = st.length := by
  unfold shiftRows; split <;> rfl
theorem invShiftRows_length (st : List UInt8) : (invShiftRows st).length = st.length := by
  unfold invShiftRows; split <;> rfl
theorem subBytes_length (st : List UInt8) : (subBytes st).length = st.length := by simp [subBytes]
theorem invSubBytes_length (st : List UInt8) : (invSubBytes st).length = st.length := by simp [invSubBytes]
theorem columns_length (p q r s : Nat) (st : List UInt8) : (columns p q r s st).length = st.length := by
  unfold columns; split <;> simp [column]
theorem addRoundKey_length (k st : List UInt8) (hk : k.length = 16) (h : st.length = 16) :
    (addRoundKey k st).length = 16 := by simp [addRoundKey, hk, h]

theorem nextKey_length (rc : UInt8) (k : List UInt8) (h : k.length = 16) : (nextKey rc k).length = 16 := by
  obtain ⟨a0, a1, a2, a3, b0, b1, b2, b3, c0, c1, c2, c3, d0, d1, d2, d3, rfl⟩ := length16 h
  rfl

theorem expand_length (rcs k : List UInt8) (h : k.length = 16) : ∀ r ∈ expand rcs k, r.length = 16 := by
  induction rcs generalizing k with
  | nil => simp [expand, h]
  | cons rc rest ih =>
    intro r hr
    simp only [expand, List.mem_cons] at hr
    rcases hr with rfl | hr
    · exact h
    · exact ih _ (nextKey_length rc k h) r hr

theorem rounds_length (ks : List (List UInt8)) (hk : ∀ k ∈ ks, k.length = 16) (st : List UInt8)
    (h : st.length = 16) : (rounds ks st).length = 16 := by
  induction ks generalizing st with
  | nil => exact h
  | cons k ks ih =>
    have h1 : (addRoundKey k (shiftRows (subBytes st))).length = 16 :=
      addRoundKey_length _ _ (hk k (by simp)) (by rw [shiftRows_length, subBytes_length, h])
    cases ks with
    | nil => exact h1
    | cons k' ks' =>
      refine ih (fun x hx => hk x (by simp [hx])) _ ?_
      exact addRoundKey_length _ _ (hk k (by simp))
        (by rw [mixColumns, columns_length, shiftRows_length, subBytes_length, h])

theorem invRounds_length (ks : List (List UInt8)) (hk : ∀ k ∈ ks, k.length = 16) (st : List UInt8)
    (h : st.length = 16) : (invRounds ks st).length = 16 := by
  induction ks generalizing st with
  | nil => exact h
  | cons k ks ih =>
    have h1 : (addRoundKey k (invSubBytes (invShiftRows st))).length = 16 :=
      addRoundKey_length _ _ (hk k (by simp)) (by rw [invSubBytes_length, invShiftRows_length, h])
    cases ks with
    | nil => exact h1
    | cons k' ks' =>
      refine ih (fun x hx => hk x (by simp [hx])) _ ?_
      rw [invMixColumns, columns_length]; exact h1

/-- One inner round of the inverse cipher. -/
def invRound (st k : List UInt8) : List UInt8 :=
  invMixColumns (addRoundKey k (invSubBytes (invShiftRows st)))

theorem invRounds_append (ks : List (List UInt8)) (k0 st : List UInt8) :
    invRounds (ks ++ [k0]) st = addRoundKey k0 (invSubBytes (invShiftRows (ks.foldl invRound st))) := by
  induction ks generalizing st with
  | nil => rfl
  | cons k ks ih =>
    have : invRounds (k :: (ks ++ [k0])) st = invRounds (ks ++ [k0]) (invRound st k) := by
      cases ks <;> rfl
    rw [List.cons_append, this, ih]
    rfl

theorem rounds_back (ks : List (List UInt8)) (k : List UInt8) (hk : ∀ x ∈ k :: ks, x.length = 16)
    (st : List UInt8) (h : st.length = 16) :
    invSubBytes (invShiftRows (((k :: ks).dropLast.reverse).foldl invRound
      (addRoundKey ((k :: ks).getLast (by simp)) (rounds (k :: ks) st)))) = st := by
  induction ks generalizing k st with
  | nil =>
    simp only [List.dropLast_singleton, List.reverse_nil, List.foldl_nil, List.getLast_singleton, rounds]
    rw [add_add _ _ (Nat.le_of_eq (by rw [shiftRows_length, subBytes_length, h, hk k (by simp)])),
      inv_shift _ (by rw [subBytes_length, h]), inv_sub]
  | cons k' ks ih =>
    have hl : (mixColumns (shiftRows (subBytes st))).length = 16 := by
      rw [mixColumns, columns_length, shiftRows_length, subBytes_length, h]
    have hst : (addRoundKey k (mixColumns (shiftRows (subBytes st)))).length = 16 :=
      addRoundKey_length _ _ (hk k (by simp)) hl
    have := ih k' (fun x hx => hk x (List.mem_cons_of_mem _ hx)) _ hst
    have hr : rounds (k :: k' :: ks) st =
      rounds (k' :: ks) (addRoundKey k (mixColumns (shiftRows (subBytes st)))) := rfl
    rw [List.dropLast_cons₂, List.reverse_cons, List.foldl_append, List.getLast_cons (by simp), hr]
    simp only [List.foldl_cons, List.foldl_nil]
    rw [invRound, this, add_add _ _ (Nat.le_of_eq (by rw [hl, hk k (by simp)])), inv_mix _ (by
      rw [shiftRows_length, subBytes_length, h]), inv_shift _ (by rw [subBytes_length, h]), inv_sub]

theorem encrypt_length (key block : List UInt8) (hk : key.length = 16) (hb : block.length = 16) :
    (encrypt key block).length = 16 := by
  unfold encrypt
  have hr := expand_length [0x01, 0x02, 0x04, 0x08, 0x10, 0x20, 0x40, 0x80, 0x1B, 0x36] key hk
  rw [roundKeys]
  generalize expand _ key = ks at hr ⊢
  cases ks with
  | nil => exact hb
  | cons k ks =>
    exact rounds_length _ (fun x hx => hr x (by simp [hx])) _ (addRoundKey_length _ _ (hr k (by simp)) hb)

theorem decrypt_length (key block : List UInt8) (hk : key.length = 16) (hb : block.length = 16) :
    (decrypt key block).length = 16 := by
  unfold decrypt
  have hr := expand_length [0x01, 0x02, 0x04, 0x08, 0x10, 0x20, 0x40, 0x80, 0x1B, 0x36] key hk
  rw [roundKeys]
  replace hr : ∀ r ∈ (expand [0x01, 0x02, 0x04, 0x08, 0x10, 0x20, 0x40, 0x80, 0x1B, 0x36] key).reverse,
    r.length = 16 := fun r h => hr r (by simpa using h)
  generalize (expand _ key).reverse = ks at hr ⊢
  cases ks with
  | nil => exact hb
  | cons k ks =>
    exact invRounds_length _ (fun x hx => hr x (by simp [hx])) _
      (addRoundKey_length _ _ (hr k (by simp)) hb)

theorem decrypt_encrypt (key block : List UInt8) (hk : key.length = 16) (hb : block.length = 16) :
    decrypt key (encrypt key block) = block := by
  unfold decrypt encrypt
  have hr := expand_length [0x01, 0x02, 0x04, 0x08, 0x10, 0x20, 0x40, 0x80, 0x1B, 0x36] key hk
  have hne : ∃ k0 k1 ks, roundKeys key = k0 :: k1 :: ks := ⟨_, _, _, rfl⟩
  change ∀ r ∈ roundKeys key, r.length = 16 at hr
  obtain ⟨k0, k1, ks, he⟩ := hne
  rw [he] at hr ⊢
  have hsplit : k0 :: k1 :: ks = k0 :: ((k1 :: ks).dropLast ++ [(k1 :: ks).getLast (by simp)]) := by
    rw [List.dropLast_concat_getLast]
  have hrev : (k0 :: k1 :: ks).reverse =
      (k1 :: ks).getLast (by simp) :: ((k1 :: ks).dropLast.reverse ++ [k0]) := by
    refine (congrArg List.reverse hsplit).trans ?_
    simp only [List.reverse_cons, List.reverse_append, List.reverse_nil, List.nil_append,
      List.singleton_append, List.cons_append]
  rw [hrev]
  have ha : (addRoundKey k0 block).length = 16 := addRoundKey_length _ _ (hr k0 (by simp)) hb
  show invRounds _ (addRoundKey _ (rounds (k1 :: ks) (addRoundKey k0 block))) = block
  rw [invRounds_append, rounds_back ks k1 (fun x hx => hr x (List.mem_cons_of_mem _ hx)) _ ha,
    add_add _ _ (Nat.le_of_eq (by rw [hb, hr k0 (by simp)]))]

end MBus.Spec.Aes
