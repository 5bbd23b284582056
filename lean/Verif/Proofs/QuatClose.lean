import Verif.Props.Header
import Verif.Spec.IO
import Verif.Proofs.Pose
/-!
# Quaternions written with few digits
-/
namespace TC
set_option linter.unusedSectionVars false
variable {K R : Type} [Field K] [LinearOrder K] [IsStrictOrderedRing K] [FloorRing K]

/-! ### quaternions written with few digits -/

theorem mul_close {a b a' b' e : K} (ha : |a| ≤ 1) (hb : |b| ≤ 1) (h1 : |a' - a| ≤ e) (h2 : |b' - b| ≤ e) :
    |a' * b' - a * b| ≤ 2 * e + e ^ 2 := by
  have e1 : a' * b' - a * b = a * (b' - b) + b * (a' - a) + (a' - a) * (b' - b) := by ring
  have he : 0 ≤ e := le_trans (abs_nonneg _) h1
  rw [e1]
  calc |a * (b' - b) + b * (a' - a) + (a' - a) * (b' - b)|
      ≤ |a * (b' - b)| + |b * (a' - a)| + |(a' - a) * (b' - b)| := abs_add_three _ _ _
    _ ≤ 1 * e + 1 * e + e * e := by
        rw [abs_mul, abs_mul, abs_mul]
        gcongr
    _ = 2 * e + e ^ 2 := by ring

theorem ratio_close {N N' n c e : K} (hN : |N| ≤ 1) (h1 : |N' - N| ≤ c) (h2 : |n - 1| ≤ c) (hc : c ≤ 1 / 20)
    (hce : 20 / 9 * c ≤ e) : |N' / n - N| ≤ e := by
  have hc0 : 0 ≤ c := le_trans (abs_nonneg _) h1
  obtain ⟨h2a, h2b⟩ := abs_le.mp h2
  have hn : 0 < n := by linarith
  have e1 : N' / n - N = ((N' - N) - N * (n - 1)) / n := by
    field_simp; ring
  have h3 : |N * (n - 1)| ≤ c := by
    rw [abs_mul]
    calc |N| * |n - 1| ≤ 1 * c := by gcongr
      _ = c := one_mul c
  have h4 : |(N' - N) - N * (n - 1)| ≤ 2 * c := by
    calc |(N' - N) - N * (n - 1)| ≤ |N' - N| + |N * (n - 1)| := abs_sub _ _
      _ ≤ 2 * c := by linarith
  rw [e1, abs_div, abs_of_pos hn, div_le_iff₀ hn]
  nlinarith

theorem abs_le_one_of_sq {a s : K} (h : a * a + s = 1) (hs : 0 ≤ s) : |a| ≤ 1 := by
  rw [abs_le]
  constructor <;> nlinarith [mul_self_nonneg a]

set_option maxHeartbeats 4000000 in
theorem quatMat_close {q q' : Q4 K} {e : K} (hq : q.normSq = 1) (he : e ≤ 1 / 1000)
    (hx : |q'.x - q.x| ≤ e) (hy : |q'.y - q.y| ≤ e) (hz : |q'.z - q.z| ≤ e) (hw : |q'.w - q.w| ≤ e) :
    q'.normSq ≠ 0 ∧ CloseM (20 * e) (quatMat q') (quatMat q) := by
  have he0 : 0 ≤ e := le_trans (abs_nonneg _) hx
  have hq1 : q.x * q.x + q.y * q.y + q.z * q.z + q.w * q.w = 1 := hq
  have bx : |q.x| ≤ 1 := abs_le_one_of_sq (s := q.y * q.y + q.z * q.z + q.w * q.w) (by linarith)
    (by nlinarith [mul_self_nonneg q.y, mul_self_nonneg q.z, mul_self_nonneg q.w])
  have bY : |q.y| ≤ 1 := abs_le_one_of_sq (s := q.x * q.x + q.z * q.z + q.w * q.w) (by linarith)
    (by nlinarith [mul_self_nonneg q.x, mul_self_nonneg q.z, mul_self_nonneg q.w])
  have bz : |q.z| ≤ 1 := abs_le_one_of_sq (s := q.x * q.x + q.y * q.y + q.w * q.w) (by linarith)
    (by nlinarith [mul_self_nonneg q.x, mul_self_nonneg q.y, mul_self_nonneg q.w])
  have bw : |q.w| ≤ 1 := abs_le_one_of_sq (s := q.x * q.x + q.y * q.y + q.z * q.z) (by linarith)
    (by nlinarith [mul_self_nonneg q.x, mul_self_nonneg q.y, mul_self_nonneg q.z])
  set c := 8 * e + 4 * e ^ 2 with hc
  have hcs : c ≤ 1 / 20 := by rw [hc]; nlinarith
  have hce : 20 / 9 * c ≤ 20 * e := by rw [hc]; nlinarith
  have xx := abs_le.mp (mul_close bx bx hx hx)
  have yy := abs_le.mp (mul_close bY bY hy hy)
  have zz := abs_le.mp (mul_close bz bz hz hz)
  have ww := abs_le.mp (mul_close bw bw hw hw)
  have xy := abs_le.mp (mul_close bx bY hx hy)
  have xz := abs_le.mp (mul_close bx bz hx hz)
  have xw := abs_le.mp (mul_close bx bw hx hw)
  have yz := abs_le.mp (mul_close bY bz hy hz)
  have yw := abs_le.mp (mul_close bY bw hy hw)
  have zw := abs_le.mp (mul_close bz bw hz hw)
  have sx := mul_self_nonneg q.x
  have sy := mul_self_nonneg q.y
  have sz := mul_self_nonneg q.z
  have sw := mul_self_nonneg q.w
  have p1 := mul_self_nonneg (q.x + q.y)
  have p2 := mul_self_nonneg (q.x - q.y)
  have p3 := mul_self_nonneg (q.x + q.z)
  have p4 := mul_self_nonneg (q.x - q.z)
  have p5 := mul_self_nonneg (q.x + q.w)
  have p6 := mul_self_nonneg (q.x - q.w)
  have p7 := mul_self_nonneg (q.y + q.z)
  have p8 := mul_self_nonneg (q.y - q.z)
  have p9 := mul_self_nonneg (q.y + q.w)
  have p10 := mul_self_nonneg (q.y - q.w)
  have p11 := mul_self_nonneg (q.z + q.w)
  have p12 := mul_self_nonneg (q.z - q.w)
  have hn : |q'.normSq - 1| ≤ c := by
    rw [abs_le, ← hq1]
    simp only [Q4.normSq]
    rw [hc]
    constructor <;> linarith [xx.1, xx.2, yy.1, yy.2, zz.1, zz.2, ww.1, ww.2]
  have hn0 : q'.normSq ≠ 0 := by
    obtain ⟨h, -⟩ := abs_le.mp hn
    intro h0
    rw [h0] at h
    linarith
  refine ⟨hn0, ?_⟩
  intro i j
  unfold Close
  fin_cases i <;> fin_cases j <;>
    simp [quatMat, hq] <;>
    refine ratio_close ?_ ?_ hn hcs hce <;>
    rw [abs_le] <;>
    (try rw [hc]) <;>
    constructor <;>
    linarith [xx.1, xx.2, yy.1, yy.2, zz.1, zz.2, ww.1, ww.2, xy.1, xy.2, xz.1, xz.2, xw.1, xw.2,
      yz.1, yz.2, yw.1, yw.2, zw.1, zw.2]

end TC
