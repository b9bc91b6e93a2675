/-
Rounding error analysis of `log_cf_11` in binary64.
-/
import Verif.F64.Error
import Verif.Proofs.LogCF
import Verif.Model.Xmath

namespace Verif
open F64 LogCF

/-! ### bounds on the exact denominators -/

theorem d11_lo {z : ℝ} (h : 1 / 4 ≤ z) : (105 / 4 : ℝ) ≤ d11 z := by unfold d11; linarith
theorem d11_hi {z : ℝ} (h : z ≤ 1) : d11 z ≤ 42 := by unfold d11; linarith
theorem sq_le' {z : ℝ} (h : 1 / 4 ≤ z) (h1 : z ≤ 1) : (z - 1) ^ 2 ≤ 9 / 16 := by nlinarith

theorem d10_lo {z : ℝ} (h : 1 / 4 ≤ z) (h1 : z ≤ 1) : (21607 / 1000 : ℝ) ≤ d10 z := by
  have hd := d11_lo h
  have hs := sq_le' h h1
  have : 100 * (z - 1) ^ 2 / d11 z ≤ 100 * (9 / 16) / (105 / 4) := by gcongr
  unfold d10; linarith
theorem d10_hi {z : ℝ} (h : 1 / 4 ≤ z) (h1 : z ≤ 1) : d10 z ≤ 38 := by
  have hd := d11_pos (z := z) (by linarith)
  have : 0 ≤ 100 * (z - 1) ^ 2 / d11 z := by positivity
  unfold d10; linarith

theorem d9_lo {z : ℝ} (h : 1 / 4 ≤ z) (h1 : z ≤ 1) : (19141 / 1000 : ℝ) ≤ d9 z := by
  have hd := d10_lo h h1
  have hs := sq_le' h h1
  have : 81 * (z - 1) ^ 2 / d10 z ≤ 81 * (9 / 16) / (21607 / 1000) := by gcongr
  unfold d9; linarith
theorem d9_hi {z : ℝ} (h : 1 / 4 ≤ z) (h1 : z ≤ 1) : d9 z ≤ 34 := by
  have hd := d10_pos (z := z) (by linarith)
  have : 0 ≤ 81 * (z - 1) ^ 2 / d10 z := by positivity
  unfold d9; linarith

theorem d8_lo {z : ℝ} (h : 1 / 4 ≤ z) (h1 : z ≤ 1) : (16869 / 1000 : ℝ) ≤ d8 z := by
  have hd := d9_lo h h1
  have hs := sq_le' h h1
  have : 64 * (z - 1) ^ 2 / d9 z ≤ 64 * (9 / 16) / (19141 / 1000) := by gcongr
  unfold d8; linarith
theorem d8_hi {z : ℝ} (h : 1 / 4 ≤ z) (h1 : z ≤ 1) : d8 z ≤ 30 := by
  have hd := d9_pos (z := z) (by linarith)
  have : 0 ≤ 64 * (z - 1) ^ 2 / d9 z := by positivity
  unfold d8; linarith

theorem d7_lo {z : ℝ} (h : 1 / 4 ≤ z) (h1 : z ≤ 1) : (1827 / 125 : ℝ) ≤ d7 z := by
  have hd := d8_lo h h1
  have hs := sq_le' h h1
  have : 49 * (z - 1) ^ 2 / d8 z ≤ 49 * (9 / 16) / (16869 / 1000) := by gcongr
  unfold d7; linarith
theorem d7_hi {z : ℝ} (h : 1 / 4 ≤ z) (h1 : z ≤ 1) : d7 z ≤ 26 := by
  have hd := d8_pos (z := z) (by linarith)
  have : 0 ≤ 49 * (z - 1) ^ 2 / d8 z := by positivity
  unfold d7; linarith

theorem d6_lo {z : ℝ} (h : 1 / 4 ≤ z) (h1 : z ≤ 1) : (3091 / 250 : ℝ) ≤ d6 z := by
  have hd := d7_lo h h1
  have hs := sq_le' h h1
  have : 36 * (z - 1) ^ 2 / d7 z ≤ 36 * (9 / 16) / (1827 / 125) := by gcongr
  unfold d6; linarith
theorem d6_hi {z : ℝ} (h : 1 / 4 ≤ z) (h1 : z ≤ 1) : d6 z ≤ 22 := by
  have hd := d7_pos (z := z) (by linarith)
  have : 0 ≤ 36 * (z - 1) ^ 2 / d7 z := by positivity
  unfold d6; linarith

theorem d5_lo {z : ℝ} (h : 1 / 4 ≤ z) (h1 : z ≤ 1) : (1264 / 125 : ℝ) ≤ d5 z := by
  have hd := d6_lo h h1
  have hs := sq_le' h h1
  have : 25 * (z - 1) ^ 2 / d6 z ≤ 25 * (9 / 16) / (3091 / 250) := by gcongr
  unfold d5; linarith
theorem d5_hi {z : ℝ} (h : 1 / 4 ≤ z) (h1 : z ≤ 1) : d5 z ≤ 18 := by
  have hd := d6_pos (z := z) (by linarith)
  have : 0 ≤ 25 * (z - 1) ^ 2 / d6 z := by positivity
  unfold d5; linarith

theorem d4_lo {z : ℝ} (h : 1 / 4 ≤ z) (h1 : z ≤ 1) : (7859 / 1000 : ℝ) ≤ d4 z := by
  have hd := d5_lo h h1
  have hs := sq_le' h h1
  have : 16 * (z - 1) ^ 2 / d5 z ≤ 16 * (9 / 16) / (1264 / 125) := by gcongr
  unfold d4; linarith
theorem d4_hi {z : ℝ} (h : 1 / 4 ≤ z) (h1 : z ≤ 1) : d4 z ≤ 14 := by
  have hd := d5_pos (z := z) (by linarith)
  have : 0 ≤ 16 * (z - 1) ^ 2 / d5 z := by positivity
  unfold d4; linarith

theorem d3_lo {z : ℝ} (h : 1 / 4 ≤ z) (h1 : z ≤ 1) : (1121 / 200 : ℝ) ≤ d3 z := by
  have hd := d4_lo h h1
  have hs := sq_le' h h1
  have : 9 * (z - 1) ^ 2 / d4 z ≤ 9 * (9 / 16) / (7859 / 1000) := by gcongr
  unfold d3; linarith
theorem d3_hi {z : ℝ} (h : 1 / 4 ≤ z) (h1 : z ≤ 1) : d3 z ≤ 10 := by
  have hd := d4_pos (z := z) (by linarith)
  have : 0 ≤ 9 * (z - 1) ^ 2 / d4 z := by positivity
  unfold d3; linarith

theorem d2_lo {z : ℝ} (h : 1 / 4 ≤ z) (h1 : z ≤ 1) : (837 / 250 : ℝ) ≤ d2 z := by
  have hd := d3_lo h h1
  have hs := sq_le' h h1
  have : 4 * (z - 1) ^ 2 / d3 z ≤ 4 * (9 / 16) / (1121 / 200) := by gcongr
  unfold d2; linarith
theorem d2_hi {z : ℝ} (h : 1 / 4 ≤ z) (h1 : z ≤ 1) : d2 z ≤ 6 := by
  have hd := d3_pos (z := z) (by linarith)
  have : 0 ≤ 4 * (z - 1) ^ 2 / d3 z := by positivity
  unfold d2; linarith

theorem d1_lo {z : ℝ} (h : 1 / 4 ≤ z) (h1 : z ≤ 1) : (1081 / 1000 : ℝ) ≤ d1 z := by
  have hd := d2_lo h h1
  have hs := sq_le' h h1
  have : 1 * (z - 1) ^ 2 / d2 z ≤ 1 * (9 / 16) / (837 / 250) := by gcongr
  unfold d1; linarith
theorem d1_hi {z : ℝ} (h : 1 / 4 ≤ z) (h1 : z ≤ 1) : d1 z ≤ 2 := by
  have hd := d2_pos (z := z) (by linarith)
  have : 0 ≤ 1 * (z - 1) ^ 2 / d2 z := by positivity
  unfold d1; linarith

/-- One level of the fraction: `c * x2 / D + xx`. -/
theorem logStep {x2 D xx : F64} {X d S e2 eD eS L R a E q e V : ℝ} {c : ℤ} (hc : |c| ≤ 2 ^ 53)
    (h2 : App x2 X e2) (hX0 : 0 ≤ X) (hX : X ≤ 9 / 16) (hD : App D d eD) (hL : L ≤ d) (hL2 : eD < L) (hS : App xx S eS)
    (ha : |(c : ℝ)| * e2 + ru * (|(c : ℝ)| * (9 / 16 + e2)) ≤ a) (hb : 1 / 10 ^ 50 ≤ |(c : ℝ)| * (9 / 16 + e2))
    (hb' : |(c : ℝ)| * (9 / 16 + e2) ≤ 10 ^ 60)
    (hR : |(c : ℝ)| * (9 / 16) ≤ R * L) (hR0 : 0 ≤ R) (hE : a + R * eD ≤ E * (L - eD)) (hRE : 1 / 10 ^ 50 ≤ R + E) (hRE' : R + E ≤ 10 ^ 60)
    (hq : E + ru * (R + E) ≤ q)
    (hV : |c * X / d + S| + (q + eS) ≤ V) (hVb : 1 / 10 ^ 50 ≤ V) (hVb' : V ≤ 10 ^ 60) (he : q + eS + ru * V ≤ e) :
    App (lit (c : ℚ) *. x2 /. D +. xx) (c * X / d + S) e := by
  have e2' : 0 ≤ e2 := (abs_nonneg _).trans h2.2
  have h1 : App (lit (c : ℚ) *. x2) (c * X) a :=
    App.mul (App.lit_int hc) h2 (V := |(c : ℝ)|) (W := 9 / 16) le_rfl (by rw [abs_of_nonneg hX0]; exact hX)
      (by rw [add_zero]) hb hb' (by simpa using ha)
  have h3 : App (lit (c : ℚ) *. x2 /. D) (c * X / d) q := by
    refine App.div h1 hD hL hL2 ?_ hE le_rfl hRE hRE' hq
    rw [abs_mul, abs_of_nonneg hX0]
    calc |(c : ℝ)| * X ≤ |(c : ℝ)| * (9 / 16) := mul_le_mul_of_nonneg_left hX (abs_nonneg _)
      _ ≤ R * L := hR
      _ ≤ R * d := mul_le_mul_of_nonneg_left hL hR0
  exact App.add h3 hS hV hVb hVb' he

theorem abs_bnd {v lo hi B : ℝ} (h1 : lo ≤ v) (h2 : v ≤ hi) (h3 : -B ≤ lo) (h4 : hi ≤ B) : |v| ≤ B := abs_le.mpr ⟨h3.trans h1, h2.trans h4⟩

/-- `D1`, the outermost denominator as computed -/
def logDen (z : F64) : F64 :=
  let x := z -. lit 1
  let xx := x +. lit 2
  let x2 := x *. x
  let xx2 := xx +. xx
  let xx3 := xx +. xx2
  let xx5 := xx3 +. xx2
  let xx7 := xx5 +. xx2
  let xx9 := xx7 +. xx2
  let xx11 := xx9 +. xx2
  let xx13 := xx11 +. xx2
  let xx15 := xx13 +. xx2
  let xx17 := xx15 +. xx2
  let xx19 := xx17 +. xx2
  let xx21 := xx19 +. xx2
  (-. x2) /.
      (lit (-4) *. x2 /.
        (lit (-9) *. x2 /.
          (lit (-16) *. x2 /.
            (lit (-25) *. x2 /.
              (lit (-36) *. x2 /.
                (lit (-49) *. x2 /.
                  (lit (-64) *. x2 /.
                    (lit (-81) *. x2 /.
                      (lit (-100) *. x2 /. xx21 +. xx19) +. xx17) +. xx15) +. xx13) +. xx11) +. xx9)
          +. xx7) +. xx5) +. xx3) +. xx

theorem log_cf_eq (z : F64) : log_cf_11 z = lit 2 *. (z -. lit 1) /. logDen z := rfl

theorem neg_eq_mul (x : F64) : (-. x) = lit ((-1 : ℤ) : ℚ) *. x := by
  have := F64.neg_one_mul x
  rw [show ((-1 : ℤ) : ℚ) = -1 by norm_num]; exact this.symm

theorem logDen_app {z : F64} (hz : isFin z) (h : 1 / 4 ≤ toR z) (h1 : toR z ≤ 1) : App (logDen z) (d1 (toR z)) (4951 / 6250000000000000000) := by
  set Z := toR z with hZ
  have l1 : App (lit 1) 1 0 := by have := App.lit_int (i := 1) (by norm_num); simpa using this
  have l2 : App (lit 2) 2 0 := by have := App.lit_int (i := 2) (by norm_num); simpa using this
  have x : App (z -. lit 1) (Z - 1) (4167 / 50000000000000000000) :=
    App.sub (App.self hz) l1 (B := 3 / 4) (by rw [add_zero, add_zero]; exact abs_bnd (lo := -3 / 4) (hi := 0) (by linarith) (by linarith) (by norm_num) (by norm_num))
      (by norm_num) (by norm_num) (by unfold ru; norm_num)
  have xx : App (z -. lit 1 +. lit 2) (1 * (Z + 1)) (30557 / 100000000000000000000) := by
    rw [show 1 * (Z + 1) = Z - 1 + 2 by ring]
    refine App.add x l2 (B := (100000000000000004167 / 50000000000000000000)) ?_ (by norm_num) (by norm_num) (by unfold ru; norm_num)
    have : |Z - 1 + 2| ≤ 2 := abs_bnd (lo := 5 / 4) (hi := 2) (by linarith) (by linarith) (by norm_num) (by norm_num)
    linarith
  have x2 : App ((z -. lit 1) *. (z -. lit 1)) ((Z - 1) ^ 2) (293 / 1562500000000000000) := by
    rw [sq]
    have hb : |Z - 1| ≤ 3 / 4 := abs_bnd (lo := -3 / 4) (hi := 0) (by linarith) (by linarith) (by norm_num) (by norm_num)
    exact App.mul x x hb hb le_rfl (by norm_num) (by norm_num) (by unfold ru; norm_num)
  have hX0 : 0 ≤ (Z - 1) ^ 2 := sq_nonneg _
  have hX := sq_le' h h1
  have x4 : App (z -. lit 1 +. lit 2 +. (z -. lit 1 +. lit 2)) (2 * (Z + 1)) (105559 / 100000000000000000000) := by
    rw [show 2 * (Z + 1) = 1 * (Z + 1) + 1 * (Z + 1) by ring]
    refine App.add xx xx (B := (200000000000000030557 / 50000000000000000000)) ?_ (by norm_num) (by norm_num) (by unfold ru; norm_num)
    have : |1 * (Z + 1) + 1 * (Z + 1)| ≤ 4 := abs_bnd (lo := 0) (hi := 4) (by linarith) (by linarith) (by norm_num) (by norm_num)
    linarith
  have up : ∀ {y : F64} {k e e' : ℝ}, App y (k * (Z + 1)) e → 0 ≤ k → 0 ≤ e → k ≤ 20 → e ≤ 1 →
      e + (105559 / 100000000000000000000) + ru * (2 * (k + 2) + e + (105559 / 100000000000000000000)) ≤ e' → App (y +. (z -. lit 1 +. lit 2 +. (z -. lit 1 +. lit 2))) ((k + 2) * (Z + 1)) e' := by
    intro y k e e' hy hk he hk20 he1 hle
    rw [show (k + 2) * (Z + 1) = k * (Z + 1) + 2 * (Z + 1) by ring]
    refine App.add hy x4 (B := 2 * (k + 2) + e + (105559 / 100000000000000000000)) ?_ ?_ ?_ hle
    · have : |k * (Z + 1) + 2 * (Z + 1)| ≤ 2 * (k + 2) := abs_bnd (lo := 0) (hi := 2 * (k + 2)) (by nlinarith) (by nlinarith) (by linarith) le_rfl
      linarith
    · have : (1 : ℝ) / 10 ^ 50 ≤ 2 * 2 := by norm_num
      linarith [(by norm_num : (0 : ℝ) ≤ (105559 / 100000000000000000000))]
    · have : (50 : ℝ) ≤ 10 ^ 60 := by norm_num
      linarith [(by norm_num : ((105559 / 100000000000000000000) : ℝ) ≤ 1)]

  have x3' := up (k := 1) (e' := (202783 / 100000000000000000000)) xx (by norm_num) (by norm_num) (by norm_num) (by norm_num) (by unfold ru; norm_num)
  norm_num only at x3'
  have x5' := up (k := 3) (e' := (209727 / 50000000000000000000)) x3' (by norm_num) (by norm_num) (by norm_num) (by norm_num) (by unfold ru; norm_num)
  norm_num only at x5'
  have x7' := up (k := 5) (e' := (680569 / 100000000000000000000)) x5' (by norm_num) (by norm_num) (by norm_num) (by norm_num) (by unfold ru; norm_num)
  norm_num only at x7'
  have x9' := up (k := 7) (e' := (986129 / 100000000000000000000)) x7' (by norm_num) (by norm_num) (by norm_num) (by norm_num) (by unfold ru; norm_num)
  norm_num only at x9'
  have x11' := up (k := 9) (e' := (1336133 / 100000000000000000000)) x9' (by norm_num) (by norm_num) (by norm_num) (by norm_num) (by unfold ru; norm_num)
  norm_num only at x11'
  have x13' := up (k := 11) (e' := (1730581 / 100000000000000000000)) x11' (by norm_num) (by norm_num) (by norm_num) (by norm_num) (by unfold ru; norm_num)
  norm_num only at x13'
  have x15' := up (k := 13) (e' := (1084737 / 50000000000000000000)) x13' (by norm_num) (by norm_num) (by norm_num) (by norm_num) (by unfold ru; norm_num)
  norm_num only at x15'
  have x17' := up (k := 15) (e' := (2652811 / 100000000000000000000)) x15' (by norm_num) (by norm_num) (by norm_num) (by norm_num) (by unfold ru; norm_num)
  norm_num only at x17'
  have x19' := up (k := 17) (e' := (3180593 / 100000000000000000000)) x17' (by norm_num) (by norm_num) (by norm_num) (by norm_num) (by unfold ru; norm_num)
  norm_num only at x19'
  have x21' := up (k := 19) (e' := (3752819 / 100000000000000000000)) x19' (by norm_num) (by norm_num) (by norm_num) (by norm_num) (by unfold ru; norm_num)
  norm_num only at x21'
  have D11 : App _ (d11 Z) (3752819 / 100000000000000000000) := x21'

  have D10 := logStep (c := -100) (L := (105 / 4)) (R := (2143 / 1000)) (a := (2500201 / 100000000000000000000)) (E := (401619 / 100000000000000000000)) (q := (425431 / 100000000000000000000)) (V := (38001 / 1000)) (e := (2014129 / 50000000000000000000))
    (by norm_num) x2 hX0 hX D11 (d11_lo h) (by norm_num) x19' (by unfold ru; norm_num) (by norm_num) (by norm_num) (by norm_num) (by norm_num)
    (by norm_num) (by norm_num) (by norm_num) (by unfold ru; norm_num)
    (by
      have e : (((-100 : ℤ) : ℝ)) * (Z - 1) ^ 2 / d11 Z + 19 * (Z + 1) = d10 Z := by unfold d10; push_cast; ring
      rw [e]
      have : |d10 Z| ≤ 38 := abs_bnd (d10_lo h h1) (d10_hi h h1) (by norm_num) le_rfl
      have : (38 : ℝ) + ((425431 / 100000000000000000000) + (3180593 / 100000000000000000000)) ≤ (38001 / 1000) := by norm_num
      linarith)
    (by norm_num) (by norm_num) (by unfold ru; norm_num)
  rw [show (((-100 : ℤ) : ℝ)) * (Z - 1) ^ 2 / d11 Z + 19 * (Z + 1) = d10 Z by unfold d10; push_cast; ring] at D10
  have D9 := logStep (c := -81) (L := (21607 / 1000)) (R := (2109 / 1000)) (a := (2025163 / 100000000000000000000)) (E := (97383 / 20000000000000000000)) (q := (510349 / 100000000000000000000)) (V := (34001 / 1000)) (e := (3540949 / 100000000000000000000))
    (by norm_num) x2 hX0 hX D10 (d10_lo h h1) (by norm_num) x17' (by unfold ru; norm_num) (by norm_num) (by norm_num) (by norm_num) (by norm_num)
    (by norm_num) (by norm_num) (by norm_num) (by unfold ru; norm_num)
    (by
      have e : (((-81 : ℤ) : ℝ)) * (Z - 1) ^ 2 / d10 Z + 17 * (Z + 1) = d9 Z := by unfold d9; push_cast; ring
      rw [e]
      have : |d9 Z| ≤ 34 := abs_bnd (d9_lo h h1) (d9_hi h h1) (by norm_num) le_rfl
      have : (34 : ℝ) + ((510349 / 100000000000000000000) + (2652811 / 100000000000000000000)) ≤ (34001 / 1000) := by norm_num
      linarith)
    (by norm_num) (by norm_num) (by unfold ru; norm_num)
  rw [show (((-81 : ℤ) : ℝ)) * (Z - 1) ^ 2 / d10 Z + 17 * (Z + 1) = d9 Z by unfold d9; push_cast; ring] at D9
  have D8 := logStep (c := -64) (L := (19141 / 1000)) (R := (1881 / 1000)) (a := (1600129 / 100000000000000000000)) (E := (431569 / 100000000000000000000)) (q := (45247 / 10000000000000000000)) (V := (30001 / 1000)) (e := (2955289 / 100000000000000000000))
    (by norm_num) x2 hX0 hX D9 (d9_lo h h1) (by norm_num) x15' (by unfold ru; norm_num) (by norm_num) (by norm_num) (by norm_num) (by norm_num)
    (by norm_num) (by norm_num) (by norm_num) (by unfold ru; norm_num)
    (by
      have e : (((-64 : ℤ) : ℝ)) * (Z - 1) ^ 2 / d9 Z + 15 * (Z + 1) = d8 Z := by unfold d8; push_cast; ring
      rw [e]
      have : |d8 Z| ≤ 30 := abs_bnd (d8_lo h h1) (d8_hi h h1) (by norm_num) le_rfl
      have : (30 : ℝ) + ((45247 / 10000000000000000000) + (1084737 / 50000000000000000000)) ≤ (30001 / 1000) := by norm_num
      linarith)
    (by norm_num) (by norm_num) (by unfold ru; norm_num)
  rw [show (((-64 : ℤ) : ℝ)) * (Z - 1) ^ 2 / d9 Z + 15 * (Z + 1) = d8 Z by unfold d8; push_cast; ring] at D8
  have D7 := logStep (c := -49) (L := (16869 / 1000)) (R := (817 / 500)) (a := (1225099 / 100000000000000000000)) (E := (179443 / 50000000000000000000)) (q := (188521 / 50000000000000000000)) (V := (26001 / 1000)) (e := (2396523 / 100000000000000000000))
    (by norm_num) x2 hX0 hX D8 (d8_lo h h1) (by norm_num) x13' (by unfold ru; norm_num) (by norm_num) (by norm_num) (by norm_num) (by norm_num)
    (by norm_num) (by norm_num) (by norm_num) (by unfold ru; norm_num)
    (by
      have e : (((-49 : ℤ) : ℝ)) * (Z - 1) ^ 2 / d8 Z + 13 * (Z + 1) = d7 Z := by unfold d7; push_cast; ring
      rw [e]
      have : |d7 Z| ≤ 26 := abs_bnd (d7_lo h h1) (d7_hi h h1) (by norm_num) le_rfl
      have : (26 : ℝ) + ((188521 / 50000000000000000000) + (1730581 / 100000000000000000000)) ≤ (26001 / 1000) := by norm_num
      linarith)
    (by norm_num) (by norm_num) (by unfold ru; norm_num)
  rw [show (((-49 : ℤ) : ℝ)) * (Z - 1) ^ 2 / d8 Z + 13 * (Z + 1) = d7 Z by unfold d7; push_cast; ring] at D7
  have D6 := logStep (c := -36) (L := (1827 / 125)) (R := (693 / 500)) (a := (900073 / 100000000000000000000)) (E := (144419 / 50000000000000000000)) (q := (304239 / 100000000000000000000)) (V := (22001 / 1000)) (e := (471207 / 25000000000000000000))
    (by norm_num) x2 hX0 hX D7 (d7_lo h h1) (by norm_num) x11' (by unfold ru; norm_num) (by norm_num) (by norm_num) (by norm_num) (by norm_num)
    (by norm_num) (by norm_num) (by norm_num) (by unfold ru; norm_num)
    (by
      have e : (((-36 : ℤ) : ℝ)) * (Z - 1) ^ 2 / d7 Z + 11 * (Z + 1) = d6 Z := by unfold d6; push_cast; ring
      rw [e]
      have : |d6 Z| ≤ 22 := abs_bnd (d6_lo h h1) (d6_hi h h1) (by norm_num) le_rfl
      have : (22 : ℝ) + ((304239 / 100000000000000000000) + (1336133 / 100000000000000000000)) ≤ (22001 / 1000) := by norm_num
      linarith)
    (by norm_num) (by norm_num) (by unfold ru; norm_num)
  rw [show (((-36 : ℤ) : ℝ)) * (Z - 1) ^ 2 / d7 Z + 11 * (Z + 1) = d6 Z by unfold d6; push_cast; ring] at D6
  have D5 := logStep (c := -25) (L := (3091 / 250)) (R := (569 / 500)) (a := (625051 / 100000000000000000000)) (E := (224037 / 100000000000000000000)) (q := (118341 / 50000000000000000000)) (V := (18001 / 1000)) (e := (1422823 / 100000000000000000000))
    (by norm_num) x2 hX0 hX D6 (d6_lo h h1) (by norm_num) x9' (by unfold ru; norm_num) (by norm_num) (by norm_num) (by norm_num) (by norm_num)
    (by norm_num) (by norm_num) (by norm_num) (by unfold ru; norm_num)
    (by
      have e : (((-25 : ℤ) : ℝ)) * (Z - 1) ^ 2 / d6 Z + 9 * (Z + 1) = d5 Z := by unfold d5; push_cast; ring
      rw [e]
      have : |d5 Z| ≤ 18 := abs_bnd (d5_lo h h1) (d5_hi h h1) (by norm_num) le_rfl
      have : (18 : ℝ) + ((118341 / 50000000000000000000) + (986129 / 100000000000000000000)) ≤ (18001 / 1000) := by norm_num
      linarith)
    (by norm_num) (by norm_num) (by unfold ru; norm_num)
  rw [show (((-25 : ℤ) : ℝ)) * (Z - 1) ^ 2 / d6 Z + 9 * (Z + 1) = d5 Z by unfold d5; push_cast; ring] at D5
  have D4 := logStep (c := -16) (L := (1264 / 125)) (R := (891 / 1000)) (a := (400033 / 100000000000000000000)) (E := (16493 / 10000000000000000000)) (q := (174831 / 100000000000000000000)) (V := (14001 / 1000)) (e := (1010967 / 100000000000000000000))
    (by norm_num) x2 hX0 hX D5 (d5_lo h h1) (by norm_num) x7' (by unfold ru; norm_num) (by norm_num) (by norm_num) (by norm_num) (by norm_num)
    (by norm_num) (by norm_num) (by norm_num) (by unfold ru; norm_num)
    (by
      have e : (((-16 : ℤ) : ℝ)) * (Z - 1) ^ 2 / d5 Z + 7 * (Z + 1) = d4 Z := by unfold d4; push_cast; ring
      rw [e]
      have : |d4 Z| ≤ 14 := abs_bnd (d4_lo h h1) (d4_hi h h1) (by norm_num) le_rfl
      have : (14 : ℝ) + ((174831 / 100000000000000000000) + (680569 / 100000000000000000000)) ≤ (14001 / 1000) := by norm_num
      linarith)
    (by norm_num) (by norm_num) (by unfold ru; norm_num)
  rw [show (((-16 : ℤ) : ℝ)) * (Z - 1) ^ 2 / d5 Z + 7 * (Z + 1) = d4 Z by unfold d4; push_cast; ring] at D4
  have D3 := logStep (c := -9) (L := (7859 / 1000)) (R := (129 / 200)) (a := (225019 / 100000000000000000000)) (E := (27901 / 25000000000000000000)) (q := (118771 / 100000000000000000000)) (V := (10001 / 1000)) (e := (162337 / 25000000000000000000))
    (by norm_num) x2 hX0 hX D4 (d4_lo h h1) (by norm_num) x5' (by unfold ru; norm_num) (by norm_num) (by norm_num) (by norm_num) (by norm_num)
    (by norm_num) (by norm_num) (by norm_num) (by unfold ru; norm_num)
    (by
      have e : (((-9 : ℤ) : ℝ)) * (Z - 1) ^ 2 / d4 Z + 5 * (Z + 1) = d3 Z := by unfold d3; push_cast; ring
      rw [e]
      have : |d3 Z| ≤ 10 := abs_bnd (d3_lo h h1) (d3_hi h h1) (by norm_num) le_rfl
      have : (10 : ℝ) + ((118771 / 100000000000000000000) + (209727 / 50000000000000000000)) ≤ (10001 / 1000) := by norm_num
      linarith)
    (by norm_num) (by norm_num) (by unfold ru; norm_num)
  rw [show (((-9 : ℤ) : ℝ)) * (Z - 1) ^ 2 / d4 Z + 5 * (Z + 1) = d3 Z by unfold d3; push_cast; ring] at D3
  have D2 := logStep (c := -4) (L := (1121 / 200)) (R := (201 / 500)) (a := (100009 / 100000000000000000000)) (E := (2013 / 3125000000000000000)) (q := (68883 / 100000000000000000000)) (V := (6001 / 1000)) (e := (42293 / 12500000000000000000))
    (by norm_num) x2 hX0 hX D3 (d3_lo h h1) (by norm_num) x3' (by unfold ru; norm_num) (by norm_num) (by norm_num) (by norm_num) (by norm_num)
    (by norm_num) (by norm_num) (by norm_num) (by unfold ru; norm_num)
    (by
      have e : (((-4 : ℤ) : ℝ)) * (Z - 1) ^ 2 / d3 Z + 3 * (Z + 1) = d2 Z := by unfold d2; push_cast; ring
      rw [e]
      have : |d2 Z| ≤ 6 := abs_bnd (d2_lo h h1) (d2_hi h h1) (by norm_num) le_rfl
      have : (6 : ℝ) + ((68883 / 100000000000000000000) + (202783 / 100000000000000000000)) ≤ (6001 / 1000) := by norm_num
      linarith)
    (by norm_num) (by norm_num) (by unfold ru; norm_num)
  rw [show (((-4 : ℤ) : ℝ)) * (Z - 1) ^ 2 / d3 Z + 3 * (Z + 1) = d2 Z by unfold d2; push_cast; ring] at D2
  have D1 := logStep (c := -1) (L := (837 / 250)) (R := (169 / 1000)) (a := (25003 / 100000000000000000000)) (E := (24547 / 100000000000000000000)) (q := (1057 / 4000000000000000000)) (V := (2001 / 1000)) (e := (4951 / 6250000000000000000))
    (by norm_num) x2 hX0 hX D2 (d2_lo h h1) (by norm_num) xx (by unfold ru; norm_num) (by norm_num) (by norm_num) (by norm_num) (by norm_num)
    (by norm_num) (by norm_num) (by norm_num) (by unfold ru; norm_num)
    (by
      have e : (((-1 : ℤ) : ℝ)) * (Z - 1) ^ 2 / d2 Z + 1 * (Z + 1) = d1 Z := by unfold d1; push_cast; ring
      rw [e]
      have : |d1 Z| ≤ 2 := abs_bnd (d1_lo h h1) (d1_hi h h1) (by norm_num) le_rfl
      have : (2 : ℝ) + ((1057 / 4000000000000000000) + (30557 / 100000000000000000000)) ≤ (2001 / 1000) := by norm_num
      linarith)
    (by norm_num) (by norm_num) (by unfold ru; norm_num)
  rw [show (((-1 : ℤ) : ℝ)) * (Z - 1) ^ 2 / d2 Z + 1 * (Z + 1) = d1 Z by unfold d1; push_cast; ring] at D1
  unfold logDen
  dsimp only
  rw [neg_eq_mul]
  norm_num only [Int.cast_neg, Int.cast_ofNat, Int.cast_one] at D1 ⊢
  exact D1

end Verif
