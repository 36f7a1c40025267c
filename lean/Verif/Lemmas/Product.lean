import Verif.Lemmas.Base
import Verif.Spec.Product
import Verif.Model.XmlProduct
/-!
# The product names of the XML output
-/
namespace MBus
open Spec

theorem u8_span (v a : UInt8) : (a ≤ v ∧ v ≤ a) ↔ v = a := by
  constructor
  · rintro ⟨h1, h2⟩; exact (UInt8.le_antisymm h1 h2).symm
  · rintro rfl; exact ⟨UInt8.le_refl _, UInt8.le_refl _⟩

theorem u8_le_255 : ∀ v : UInt8, v ≤ 255 := by decide +kernel

theorem u8_ge_0 : ∀ v : UInt8, 0 ≤ v := by decide +kernel

/-- The rows of a manufacturer. -/
def rowsOf (m : String) : List Product := products.filter (fun p => p.manufacturer = m)

theorem productText_rows (m : String) (v d : UInt8) (id : Nat) :
    productText m.toList v d id = ((((rowsOf m).find? fun p => (p.versions.1 ≤ v ∧ v ≤ p.versions.2) ∧
    (p.media.1 ≤ d ∧ d ≤ p.media.2) ∧ ∀ x ∈ p.digits, x = leadingDigits id).map (·.name)).getD "").toList := by
  unfold productText rowsOf
  rw [List.find?_filter]
  congr 4
  funext p
  simp only [Product.covers, String.toList_inj, decide_eq_true_eq]

/-- The byte of the two leading digits. -/
theorem msb_iff (a b x y : Nat) (ha : a < 10) (hb : b < 10) (hx : x < 10) (hy : y < 10) :
    UInt8.ofNat (a * 16 + b) = UInt8.ofNat (x * 16 + y) ↔ (x, y) = (a, b) := by
  rw [← UInt8.toNat_inj, UInt8.toNat_ofNat', UInt8.toNat_ofNat', Prod.mk.injEq]
  omega

theorem leading_iff (id : Nat) (x y : Nat) (hx : x < 10) (hy : y < 10) (c : UInt8)
    (hc : c = UInt8.ofNat (x * 16 + y)) :
    UInt8.ofNat (id / 10000000 % 10 * 16 + id / 1000000 % 10) = c ↔ (x, y) = leadingDigits id := by
  subst hc
  rw [msb_iff _ _ x y (Nat.mod_lt _ (by omega)) (Nat.mod_lt _ (by omega)) hx hy, leadingDigits]

theorem product_ABB (v d : UInt8) (id : Nat) :
    Xml.productName "ABB".toList v d id = productText "ABB".toList v d id := by
  rw [productText_rows, show rowsOf "ABB" = [ver "ABB" 0x02 "ABB Delta-Meter",
    ver "ABB" 0x20 "ABB B21 113-100"] by decide +kernel]
  unfold Xml.productName Xml.productNameOf
  simp only [ver, vers, List.find?, u8_le_255, u8_ge_0]
  simp [String.toList_inj]
  revert v
  decide +kernel

theorem product_ACW (v d : UInt8) (id : Nat) :
    Xml.productName "ACW".toList v d id = productText "ACW".toList v d id := by
  rw [productText_rows, show rowsOf "ACW" = [ver "ACW" 0x09 "Itron CF Echo 2",
    ver "ACW" 0x0A "Itron CF 51",
    ver "ACW" 0x0B "Itron CF 55",
    ver "ACW" 0x0E "Itron BM +m",
    ver "ACW" 0x0F "Itron CF 800",
    ver "ACW" 0x14 "Itron CYBLE M-Bus 1.4"] by decide +kernel]
  unfold Xml.productName Xml.productNameOf
  simp only [ver, vers, List.find?, u8_le_255, u8_ge_0]
  simp [String.toList_inj]
  revert v
  decide +kernel

theorem product_AMT (v d : UInt8) (id : Nat) :
    Xml.productName "AMT".toList v d id = productText "AMT".toList v d id := by
  rw [productText_rows, show rowsOf "AMT" = [vers "AMT" 0x00 0x3F "Aquametro AMTRON",
    vers "AMT" 0x40 0x7F "Aquametro SAPHIR",
    vers "AMT" 0x80 0xBF "Aquametro CALEC MB",
    vers "AMT" 0xC0 0xFF "Aquametro CALEC ST"] by decide +kernel]
  unfold Xml.productName Xml.productNameOf
  simp only [ver, vers, List.find?, u8_le_255, u8_ge_0]
  simp [String.toList_inj]
  revert v
  decide +kernel

theorem product_BEC (v d : UInt8) (id : Nat) :
    Xml.productName "BEC".toList v d id = productText "BEC".toList v d id := by
  rw [productText_rows, show rowsOf "BEC" = [med "BEC" 0x02 0x00 0x00 "Berg DCMi",
    med "BEC" 0x02 0x07 0x07 "Berg BLMi",
    med "BEC" 0x0F 0x71 0x71 "Berg BMB-10S0"] by decide +kernel]
  unfold Xml.productName Xml.productNameOf
  simp only [ver, vers, med, List.find?, u8_le_255, u8_ge_0, u8_span]
  simp [String.toList_inj]
  by_cases h2 : d = 2
  · subst h2; revert v; decide +kernel
  · by_cases h15 : d = 15
    · subst h15; revert v; decide +kernel
    · simp [h2, h15]

theorem product_EFE (v d : UInt8) (id : Nat) :
    Xml.productName "EFE".toList v d id = productText "EFE".toList v d id := by
  rw [productText_rows, show rowsOf "EFE" = [med "EFE" 0x06 0x00 0x00 "Engelmann WaterStar",
    ⟨"EFE", (0x00, 0x00), (0x00, 0x05), none, "Engelmann / Elster SensoStar 2"⟩,
    ⟨"EFE", (0x00, 0x00), (0x07, 0xFF), none, "Engelmann / Elster SensoStar 2"⟩,
    ver "EFE" 0x01 "Engelmann SensoStar 2C"] by decide +kernel]
  unfold Xml.productName Xml.productNameOf
  simp only [ver, vers, med, List.find?, u8_le_255, u8_ge_0, u8_span]
  simp [String.toList_inj]
  by_cases h0 : v = 0
  · subst h0; revert d; decide +kernel
  · by_cases h1 : v = 1
    · subst h1; rfl
    · simp [h0, h1]

theorem product_ELS (v d : UInt8) (id : Nat) :
    Xml.productName "ELS".toList v d id = productText "ELS".toList v d id := by
  rw [productText_rows, show rowsOf "ELS" = [ver "ELS" 0x02 "Elster TMP-A",
    ver "ELS" 0x0A "Elster Falcon",
    ver "ELS" 0x2F "Elster F96 Plus"] by decide +kernel]
  unfold Xml.productName Xml.productNameOf
  simp only [ver, vers, List.find?, u8_le_255, u8_ge_0]
  simp [String.toList_inj]
  revert v
  decide +kernel

theorem product_ELV (v d : UInt8) (id : Nat) :
    Xml.productName "ELV".toList v d id = productText "ELV".toList v d id := by
  rw [productText_rows, show rowsOf "ELV" = [vers "ELV" 0x14 0x1D "Elvaco CMa10",
    vers "ELV" 0x32 0x3B "Elvaco CMa11"] by decide +kernel]
  unfold Xml.productName Xml.productNameOf
  simp only [ver, vers, List.find?, u8_le_255, u8_ge_0]
  simp [String.toList_inj]
  revert v
  decide +kernel

theorem product_EMH (v d : UInt8) (id : Nat) :
    Xml.productName "EMH".toList v d id = productText "EMH".toList v d id := by
  rw [productText_rows, show rowsOf "EMH" = [ver "EMH" 0x00 "EMH DIZ"] by decide +kernel]
  unfold Xml.productName Xml.productNameOf
  simp only [ver, vers, List.find?, u8_le_255, u8_ge_0]
  simp [String.toList_inj]
  revert v
  decide +kernel

theorem product_EMU (v d : UInt8) (id : Nat) :
    Xml.productName "EMU".toList v d id = productText "EMU".toList v d id := by
  rw [productText_rows, show rowsOf "EMU" = [med "EMU" 0x02 0x10 0x10 "EMU Professional 3/75 M-Bus"] by decide +kernel]
  unfold Xml.productName Xml.productNameOf
  simp only [ver, vers, med, List.find?, u8_le_255, u8_ge_0, u8_span]
  simp [String.toList_inj]
  by_cases h2 : d = 2
  · subst h2; revert v; decide +kernel
  · by_cases h15 : d = 15
    · subst h15; revert v; decide +kernel
    · simp [h2, h15]

theorem product_GAV (v d : UInt8) (id : Nat) :
    Xml.productName "GAV".toList v d id = productText "GAV".toList v d id := by
  rw [productText_rows, show rowsOf "GAV" = [med "GAV" 0x02 0x2D 0x30 "Carlo Gavazzi EM24",
    med "GAV" 0x02 0x39 0x39 "Carlo Gavazzi EM21",
    med "GAV" 0x02 0x3A 0x3A "Carlo Gavazzi EM21",
    med "GAV" 0x02 0x40 0x40 "Carlo Gavazzi EM33"] by decide +kernel]
  unfold Xml.productName Xml.productNameOf
  simp only [ver, vers, med, List.find?, u8_le_255, u8_ge_0, u8_span]
  simp [String.toList_inj]
  by_cases h2 : d = 2
  · subst h2; revert v; decide +kernel
  · by_cases h15 : d = 15
    · subst h15; revert v; decide +kernel
    · simp [h2, h15]

theorem product_GMC (v d : UInt8) (id : Nat) :
    Xml.productName "GMC".toList v d id = productText "GMC".toList v d id := by
  rw [productText_rows, show rowsOf "GMC" = [ver "GMC" 0xE6 "GMC-I A230 EMMOD 206"] by decide +kernel]
  unfold Xml.productName Xml.productNameOf
  simp only [ver, vers, List.find?, u8_le_255, u8_ge_0]
  simp [String.toList_inj]
  revert v
  decide +kernel

theorem product_KAM (v d : UInt8) (id : Nat) :
    Xml.productName "KAM".toList v d id = productText "KAM".toList v d id := by
  rw [productText_rows, show rowsOf "KAM" = [ver "KAM" 0x01 "Kamstrup 382 (6850-005)",
    ver "KAM" 0x08 "Kamstrup Multical 601"] by decide +kernel]
  unfold Xml.productName Xml.productNameOf
  simp only [ver, vers, List.find?, u8_le_255, u8_ge_0]
  simp [String.toList_inj]
  revert v
  decide +kernel

theorem product_SLB (v d : UInt8) (id : Nat) :
    Xml.productName "SLB".toList v d id = productText "SLB".toList v d id := by
  rw [productText_rows, show rowsOf "SLB" = [ver "SLB" 0x02 "Allmess Megacontrol CF-50",
    ver "SLB" 0x06 "CF Compact / Integral MK MaXX"] by decide +kernel]
  unfold Xml.productName Xml.productNameOf
  simp only [ver, vers, List.find?, u8_le_255, u8_ge_0]
  simp [String.toList_inj]
  revert v
  decide +kernel

theorem product_HYD (v d : UInt8) (id : Nat) :
    Xml.productName "HYD".toList v d id = productText "HYD".toList v d id := by
  rw [productText_rows, show rowsOf "HYD" = [ver "HYD" 0x28 "ABB F95 Typ US770",
    ver "HYD" 0x2F "Hydrometer Sharky 775"] by decide +kernel]
  unfold Xml.productName Xml.productNameOf
  simp only [ver, vers, List.find?, u8_le_255, u8_ge_0]
  simp [String.toList_inj]
  revert v
  decide +kernel

theorem product_JAN (v d : UInt8) (id : Nat) :
    Xml.productName "JAN".toList v d id = productText "JAN".toList v d id := by
  rw [productText_rows, show rowsOf "JAN" = [med "JAN" 0x02 0x09 0x09 "Janitza UMG 96S"] by decide +kernel]
  unfold Xml.productName Xml.productNameOf
  simp only [ver, vers, med, List.find?, u8_le_255, u8_ge_0, u8_span]
  simp [String.toList_inj]
  by_cases h2 : d = 2
  · subst h2; revert v; decide +kernel
  · by_cases h15 : d = 15
    · subst h15; revert v; decide +kernel
    · simp [h2, h15]

theorem product_LUG (v d : UInt8) (id : Nat) :
    Xml.productName "LUG".toList v d id = productText "LUG".toList v d id := by
  rw [productText_rows, show rowsOf "LUG" = [ver "LUG" 0x02 "Landis & Gyr Ultraheat 2WR5",
    ver "LUG" 0x03 "Landis & Gyr Ultraheat 2WR6",
    ver "LUG" 0x04 "Landis & Gyr Ultraheat UH50",
    ver "LUG" 0x07 "Landis & Gyr Ultraheat T230"] by decide +kernel]
  unfold Xml.productName Xml.productNameOf
  simp only [ver, vers, List.find?, u8_le_255, u8_ge_0]
  simp [String.toList_inj]
  revert v
  decide +kernel

theorem product_LSE (v d : UInt8) (id : Nat) :
    Xml.productName "LSE".toList v d id = productText "LSE".toList v d id := by
  rw [productText_rows, show rowsOf "LSE" = [ver "LSE" 0x99 "Siemens WFH21"] by decide +kernel]
  unfold Xml.productName Xml.productNameOf
  simp only [ver, vers, List.find?, u8_le_255, u8_ge_0]
  simp [String.toList_inj]
  revert v
  decide +kernel

theorem product_NZR (v d : UInt8) (id : Nat) :
    Xml.productName "NZR".toList v d id = productText "NZR".toList v d id := by
  rw [productText_rows, show rowsOf "NZR" = [ver "NZR" 0x01 "NZR DHZ 5/63",
    ver "NZR" 0x50 "NZR IC-M2"] by decide +kernel]
  unfold Xml.productName Xml.productNameOf
  simp only [ver, vers, List.find?, u8_le_255, u8_ge_0]
  simp [String.toList_inj]
  revert v
  decide +kernel

theorem product_RAM (v d : UInt8) (id : Nat) :
    Xml.productName "RAM".toList v d id = productText "RAM".toList v d id := by
  rw [productText_rows, show rowsOf "RAM" = [ver "RAM" 0x03 "Rossweiner ETK/ETW Modularis"] by decide +kernel]
  unfold Xml.productName Xml.productNameOf
  simp only [ver, vers, List.find?, u8_le_255, u8_ge_0]
  simp [String.toList_inj]
  revert v
  decide +kernel

theorem product_REL (v d : UInt8) (id : Nat) :
    Xml.productName "REL".toList v d id = productText "REL".toList v d id := by
  rw [productText_rows, show rowsOf "REL" = [ver "REL" 0x08 "Relay PadPuls M1",
    ver "REL" 0x12 "Relay PadPuls M4",
    ver "REL" 0x20 "Relay Padin 4",
    ver "REL" 0x30 "Relay AnDi 4",
    ver "REL" 0x40 "Relay PadPuls M2"] by decide +kernel]
  unfold Xml.productName Xml.productNameOf
  simp only [ver, vers, List.find?, u8_le_255, u8_ge_0]
  simp [String.toList_inj]
  revert v
  decide +kernel

theorem product_RKE (v d : UInt8) (id : Nat) :
    Xml.productName "RKE".toList v d id = productText "RKE".toList v d id := by
  rw [productText_rows, show rowsOf "RKE" = [ver "RKE" 0x69 "Ista sensonic II mbus"] by decide +kernel]
  unfold Xml.productName Xml.productNameOf
  simp only [ver, vers, List.find?, u8_le_255, u8_ge_0]
  simp [String.toList_inj]
  revert v
  decide +kernel

theorem product_SBC (v d : UInt8) (id : Nat) :
    Xml.productName "SBC".toList v d id = productText "SBC".toList v d id := by
  rw [productText_rows, show rowsOf "SBC" = [ids "SBC" 1 0 "Saia-Burgess ALE3",
    ids "SBC" 1 9 "Saia-Burgess ALE3",
    ids "SBC" 1 1 "Saia-Burgess AWD3"] by decide +kernel]
  unfold Xml.productName Xml.productNameOf
  simp only [ids, List.find?, u8_le_255, u8_ge_0, String.toList_inj, beq_iff_eq, Bool.or_eq_true,
    leading_iff id 1 0 (by omega) (by omega) 0x10 (by decide +kernel),
    leading_iff id 1 9 (by omega) (by omega) 0x19 (by decide +kernel),
    leading_iff id 1 1 (by omega) (by omega) 0x11 (by decide +kernel)]
  simp
  unfold leadingDigits
  have ha : id / 10000000 % 10 < 10 := by omega
  have hb : id / 1000000 % 10 < 10 := by omega
  generalize id / 10000000 % 10 = a at ha ⊢
  generalize id / 1000000 % 10 = b at hb ⊢
  revert b
  revert a
  decide +kernel

theorem product_SEO (v d : UInt8) (id : Nat) :
    Xml.productName "SEO".toList v d id = productText "SEO".toList v d id := by
  rw [productText_rows, show rowsOf "SEO" = [ids "SEO" 3 0 "Sensoco PT100",
    ids "SEO" 4 1 "Sensoco 2-NTC",
    ids "SEO" 4 5 "Sensoco Laser Light",
    ids "SEO" 4 8 "Sensoco ADIO",
    ids "SEO" 5 1 "Sensoco THU",
    ids "SEO" 6 1 "Sensoco THU",
    ids "SEO" 8 0 "Sensoco PulseCounter for E-Meter"] by decide +kernel]
  unfold Xml.productName Xml.productNameOf
  simp only [ids, List.find?, u8_le_255, u8_ge_0, String.toList_inj, beq_iff_eq, Bool.or_eq_true,
    leading_iff id 3 0 (by omega) (by omega) 0x30 (by decide +kernel),
    leading_iff id 4 1 (by omega) (by omega) 0x41 (by decide +kernel),
    leading_iff id 4 5 (by omega) (by omega) 0x45 (by decide +kernel),
    leading_iff id 4 8 (by omega) (by omega) 0x48 (by decide +kernel),
    leading_iff id 5 1 (by omega) (by omega) 0x51 (by decide +kernel),
    leading_iff id 6 1 (by omega) (by omega) 0x61 (by decide +kernel),
    leading_iff id 8 0 (by omega) (by omega) 0x80 (by decide +kernel)]
  simp
  unfold leadingDigits
  have ha : id / 10000000 % 10 < 10 := by omega
  have hb : id / 1000000 % 10 < 10 := by omega
  generalize id / 10000000 % 10 = a at ha ⊢
  generalize id / 1000000 % 10 = b at hb ⊢
  revert b
  revert a
  decide +kernel

theorem product_GTE (v d : UInt8) (id : Nat) :
    Xml.productName "GTE".toList v d id = productText "GTE".toList v d id := by
  rw [productText_rows, show rowsOf "GTE" = [ids "GTE" 3 0 "Sensoco PT100",
    ids "GTE" 4 1 "Sensoco 2-NTC",
    ids "GTE" 4 5 "Sensoco Laser Light",
    ids "GTE" 4 8 "Sensoco ADIO",
    ids "GTE" 5 1 "Sensoco THU",
    ids "GTE" 6 1 "Sensoco THU",
    ids "GTE" 8 0 "Sensoco PulseCounter for E-Meter"] by decide +kernel]
  unfold Xml.productName Xml.productNameOf
  simp only [ids, List.find?, u8_le_255, u8_ge_0, String.toList_inj, beq_iff_eq, Bool.or_eq_true,
    leading_iff id 3 0 (by omega) (by omega) 0x30 (by decide +kernel),
    leading_iff id 4 1 (by omega) (by omega) 0x41 (by decide +kernel),
    leading_iff id 4 5 (by omega) (by omega) 0x45 (by decide +kernel),
    leading_iff id 4 8 (by omega) (by omega) 0x48 (by decide +kernel),
    leading_iff id 5 1 (by omega) (by omega) 0x51 (by decide +kernel),
    leading_iff id 6 1 (by omega) (by omega) 0x61 (by decide +kernel),
    leading_iff id 8 0 (by omega) (by omega) 0x80 (by decide +kernel)]
  simp
  unfold leadingDigits
  have ha : id / 10000000 % 10 < 10 := by omega
  have hb : id / 1000000 % 10 < 10 := by omega
  generalize id / 10000000 % 10 = a at ha ⊢
  generalize id / 1000000 % 10 = b at hb ⊢
  revert b
  revert a
  decide +kernel

theorem product_SEN (v d : UInt8) (id : Nat) :
    Xml.productName "SEN".toList v d id = productText "SEN".toList v d id := by
  rw [productText_rows, show rowsOf "SEN" = [ver "SEN" 0x08 "Sensus PolluCom E",
    ver "SEN" 0x19 "Sensus PolluCom E",
    ver "SEN" 0x0B "Sensus PolluTherm",
    ver "SEN" 0x0E "Sensus PolluStat E"] by decide +kernel]
  unfold Xml.productName Xml.productNameOf
  simp only [ver, vers, List.find?, u8_le_255, u8_ge_0]
  simp [String.toList_inj]
  revert v
  decide +kernel

theorem product_SON (v d : UInt8) (id : Nat) :
    Xml.productName "SON".toList v d id = productText "SON".toList v d id := by
  rw [productText_rows, show rowsOf "SON" = [ver "SON" 0x0D "Sontex Supercal 531"] by decide +kernel]
  unfold Xml.productName Xml.productNameOf
  simp only [ver, vers, List.find?, u8_le_255, u8_ge_0]
  simp [String.toList_inj]
  revert v
  decide +kernel

theorem product_SPX (v d : UInt8) (id : Nat) :
    Xml.productName "SPX".toList v d id = productText "SPX".toList v d id := by
  rw [productText_rows, show rowsOf "SPX" = [ver "SPX" 0x31 "Sensus PolluTherm",
    ver "SPX" 0x34 "Sensus PolluTherm"] by decide +kernel]
  unfold Xml.productName Xml.productNameOf
  simp only [ver, vers, List.find?, u8_le_255, u8_ge_0]
  simp [String.toList_inj]
  revert v
  decide +kernel

theorem product_SVM (v d : UInt8) (id : Nat) :
    Xml.productName "SVM".toList v d id = productText "SVM".toList v d id := by
  rw [productText_rows, show rowsOf "SVM" = [ver "SVM" 0x08 "Elster F2 / Deltamess F2",
    ver "SVM" 0x09 "Elster F4 / Kamstrup SVM F22"] by decide +kernel]
  unfold Xml.productName Xml.productNameOf
  simp only [ver, vers, List.find?, u8_le_255, u8_ge_0]
  simp [String.toList_inj]
  revert v
  decide +kernel

theorem product_TCH (v d : UInt8) (id : Nat) :
    Xml.productName "TCH".toList v d id = productText "TCH".toList v d id := by
  rw [productText_rows, show rowsOf "TCH" = [ver "TCH" 0x26 "Techem m-bus S",
    ver "TCH" 0x40 "Techem ultra S3"] by decide +kernel]
  unfold Xml.productName Xml.productNameOf
  simp only [ver, vers, List.find?, u8_le_255, u8_ge_0]
  simp [String.toList_inj]
  revert v
  decide +kernel

theorem product_WZG (v d : UInt8) (id : Nat) :
    Xml.productName "WZG".toList v d id = productText "WZG".toList v d id := by
  rw [productText_rows, show rowsOf "WZG" = [ver "WZG" 0x03 "Modularis ETW-EAX"] by decide +kernel]
  unfold Xml.productName Xml.productNameOf
  simp only [ver, vers, List.find?, u8_le_255, u8_ge_0]
  simp [String.toList_inj]
  revert v
  decide +kernel

theorem product_ZRM (v d : UInt8) (id : Nat) :
    Xml.productName "ZRM".toList v d id = productText "ZRM".toList v d id := by
  rw [productText_rows, show rowsOf "ZRM" = [ver "ZRM" 0x81 "Minol Minocal C2",
    ver "ZRM" 0x82 "Minol Minocal WR3"] by decide +kernel]
  unfold Xml.productName Xml.productNameOf
  simp only [ver, vers, List.find?, u8_le_255, u8_ge_0]
  simp [String.toList_inj]
  revert v
  decide +kernel

/-- The manufacturers with known devices. -/
def makers : List String := ["ABB", "ACW", "AMT", "BEC", "EFE", "ELS", "ELV", "EMH", "EMU", "GAV", "GMC", "KAM", "SLB", "HYD", "JAN", "LUG", "LSE", "NZR", "RAM", "REL", "RKE", "SBC", "SEO", "GTE", "SEN", "SON", "SPX", "SVM", "TCH", "WZG", "ZRM"]

theorem makers_all : ∀ p ∈ products, p.manufacturer ∈ makers := by decide +kernel

theorem productText_unknown (m : List Char) (v d : UInt8) (id : Nat)
    (h : ∀ n ∈ makers, m ≠ n.toList) : productText m v d id = [] := by
  unfold productText
  rw [List.find?_eq_none.2]
  · rfl
  · intro p hp hc
    have := of_decide_eq_true hc
    exact h _ (makers_all p hp) this.1.symm

theorem productName_eq (m : List Char) (v d : UInt8) (id : Nat) :
    Xml.productName m v d id = productText m v d id := by
  by_cases hABB : m = "ABB".toList
  · rw [hABB]; exact product_ABB v d id
  by_cases hACW : m = "ACW".toList
  · rw [hACW]; exact product_ACW v d id
  by_cases hAMT : m = "AMT".toList
  · rw [hAMT]; exact product_AMT v d id
  by_cases hBEC : m = "BEC".toList
  · rw [hBEC]; exact product_BEC v d id
  by_cases hEFE : m = "EFE".toList
  · rw [hEFE]; exact product_EFE v d id
  by_cases hELS : m = "ELS".toList
  · rw [hELS]; exact product_ELS v d id
  by_cases hELV : m = "ELV".toList
  · rw [hELV]; exact product_ELV v d id
  by_cases hEMH : m = "EMH".toList
  · rw [hEMH]; exact product_EMH v d id
  by_cases hEMU : m = "EMU".toList
  · rw [hEMU]; exact product_EMU v d id
  by_cases hGAV : m = "GAV".toList
  · rw [hGAV]; exact product_GAV v d id
  by_cases hGMC : m = "GMC".toList
  · rw [hGMC]; exact product_GMC v d id
  by_cases hKAM : m = "KAM".toList
  · rw [hKAM]; exact product_KAM v d id
  by_cases hSLB : m = "SLB".toList
  · rw [hSLB]; exact product_SLB v d id
  by_cases hHYD : m = "HYD".toList
  · rw [hHYD]; exact product_HYD v d id
  by_cases hJAN : m = "JAN".toList
  · rw [hJAN]; exact product_JAN v d id
  by_cases hLUG : m = "LUG".toList
  · rw [hLUG]; exact product_LUG v d id
  by_cases hLSE : m = "LSE".toList
  · rw [hLSE]; exact product_LSE v d id
  by_cases hNZR : m = "NZR".toList
  · rw [hNZR]; exact product_NZR v d id
  by_cases hRAM : m = "RAM".toList
  · rw [hRAM]; exact product_RAM v d id
  by_cases hREL : m = "REL".toList
  · rw [hREL]; exact product_REL v d id
  by_cases hRKE : m = "RKE".toList
  · rw [hRKE]; exact product_RKE v d id
  by_cases hSBC : m = "SBC".toList
  · rw [hSBC]; exact product_SBC v d id
  by_cases hSEO : m = "SEO".toList
  · rw [hSEO]; exact product_SEO v d id
  by_cases hGTE : m = "GTE".toList
  · rw [hGTE]; exact product_GTE v d id
  by_cases hSEN : m = "SEN".toList
  · rw [hSEN]; exact product_SEN v d id
  by_cases hSON : m = "SON".toList
  · rw [hSON]; exact product_SON v d id
  by_cases hSPX : m = "SPX".toList
  · rw [hSPX]; exact product_SPX v d id
  by_cases hSVM : m = "SVM".toList
  · rw [hSVM]; exact product_SVM v d id
  by_cases hTCH : m = "TCH".toList
  · rw [hTCH]; exact product_TCH v d id
  by_cases hWZG : m = "WZG".toList
  · rw [hWZG]; exact product_WZG v d id
  by_cases hZRM : m = "ZRM".toList
  · rw [hZRM]; exact product_ZRM v d id
  rw [productText_unknown m v d id]
  · simp only [Xml.productName, Xml.productNameOf, hABB, hACW, hAMT, hBEC, hEFE, hELS, hELV, hEMH, hEMU, hGAV, hGMC, hKAM, hSLB, hHYD, hJAN, hLUG, hLSE, hNZR, hRAM, hREL, hRKE, hSBC, hSEO, hGTE, hSEN, hSON, hSPX, hSVM, hTCH, hWZG, hZRM, if_false, false_or,
      or_self]
    rfl
  · intro n hn
    simp only [makers, List.mem_cons, List.not_mem_nil, or_false] at hn
    rcases hn with rfl | rfl | rfl | rfl | rfl | rfl | rfl | rfl | rfl | rfl | rfl | rfl | rfl | rfl | rfl | rfl | rfl | rfl | rfl | rfl | rfl | rfl | rfl | rfl | rfl | rfl | rfl | rfl | rfl | rfl | rfl
    exacts [hABB, hACW, hAMT, hBEC, hEFE, hELS, hELV, hEMH, hEMU, hGAV, hGMC, hKAM, hSLB, hHYD, hJAN, hLUG, hLSE, hNZR, hRAM, hREL, hRKE, hSBC, hSEO, hGTE, hSEN, hSON, hSPX, hSVM, hTCH, hWZG, hZRM]


theorem product_chars (m : List Char) (v d : UInt8) (id : Nat) : ∀ c ∈ Xml.productName m v d id, 32 ≤ c.toNat ∧ c.toNat < 127 := by
  have key : ∀ p ∈ products, ∀ c ∈ p.name.toList, 32 ≤ c.toNat ∧ c.toNat < 127 := by decide +kernel
  rw [productName_eq m v d]
  unfold productText
  intro c hc
  cases hf : products.find? fun p => p.covers m v d id with
  | none => rw [hf] at hc; simp at hc
  | some p => rw [hf] at hc; exact key p (List.mem_of_find?_eq_some hf) c hc

end MBus
