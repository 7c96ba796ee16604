/-
Sine and cosine of numbers known up to an error.
-/
import Mathlib.Analysis.Complex.Trigonometric
import Verif.Proofs.Ball

namespace XCFun.Num
namespace Q

/-- Partial sums of the series of the cosine. -/
noncomputable def cosSum (x : ℝ) (k : ℕ) : ℝ := ∑ i ∈ Finset.range k, (-1) ^ i * x ^ (2 * i) / ((2 * i).factorial : ℝ)
/-- Partial sums of the series of the sine. -/
noncomputable def sinSum (x : ℝ) (k : ℕ) : ℝ := ∑ i ∈ Finset.range k, (-1) ^ i * x ^ (2 * i + 1) / ((2 * i + 1).factorial : ℝ)

theorem exp_sum (x : ℝ) (k : ℕ) :
    ∑ m ∈ Finset.range (2 * k), ((x : ℂ) * Complex.I) ^ m / (m.factorial : ℂ) = ((cosSum x k : ℝ) : ℂ) + ((sinSum x k : ℝ) : ℂ) * Complex.I := by
  induction k with
  | zero => simp [cosSum, sinSum]
  | succ k ih =>
    rw [show 2 * (k + 1) = 2 * k + 1 + 1 by ring, Finset.sum_range_succ, Finset.sum_range_succ, ih, cosSum, sinSum, cosSum, sinSum, Finset.sum_range_succ,
      Finset.sum_range_succ]
    have h : ((x : ℂ) * Complex.I) ^ (2 * k) = (-1) ^ k * (x : ℂ) ^ (2 * k) := by
      rw [mul_pow, pow_mul Complex.I, Complex.I_sq]; ring
    rw [pow_succ _ (2 * k), h]
    push_cast
    ring

theorem trig_bound {x : ℝ} {k : ℕ} (hx : |x| / ((2 * k).succ : ℝ) ≤ 1 / 2) :
    |Real.cos x - cosSum x k| ≤ |x| ^ (2 * k) / ((2 * k).factorial : ℝ) * 2 ∧ |Real.sin x - sinSum x k| ≤ |x| ^ (2 * k) / ((2 * k).factorial : ℝ) * 2 := by
  have hn : ‖(x : ℂ) * Complex.I‖ = |x| := by simp
  have h := Complex.exp_bound' (x := (x : ℂ) * Complex.I) (n := 2 * k) (by rw [hn]; exact hx)
  rw [hn, exp_sum, Complex.exp_mul_I] at h
  have e : Complex.cos x + Complex.sin x * Complex.I - (((cosSum x k : ℝ) : ℂ) + ((sinSum x k : ℝ) : ℂ) * Complex.I) =
      ((Real.cos x - cosSum x k : ℝ) : ℂ) + ((Real.sin x - sinSum x k : ℝ) : ℂ) * Complex.I := by
    push_cast; ring
  rw [e] at h
  refine ⟨le_trans ?_ h, le_trans ?_ h⟩
  · have := Complex.abs_re_le_norm (((Real.cos x - cosSum x k : ℝ) : ℂ) + ((Real.sin x - sinSum x k : ℝ) : ℂ) * Complex.I)
    rwa [Complex.add_re, Complex.mul_I_re, Complex.ofReal_re, Complex.ofReal_im, neg_zero, add_zero] at this
  · have := Complex.abs_im_le_norm (((Real.cos x - cosSum x k : ℝ) : ℂ) + ((Real.sin x - sinSum x k : ℝ) : ℂ) * Complex.I)
    rwa [Complex.add_im, Complex.mul_I_im, Complex.ofReal_re, Complex.ofReal_im, zero_add] at this

def cosC : List (Bool × ℕ) :=
  [(true, 1), (false, 2), (true, 24), (false, 720), (true, 40320), (false, 3628800), (true, 479001600), (false, 87178291200), (true, 20922789888000),
    (false, 6402373705728000), (true, 2432902008176640000), (false, 1124000727777607680000), (true, 620448401733239439360000),
    (false, 403291461126605635584000000), (true, 304888344611713860501504000000), (false, 265252859812191058636308480000000),
    (true, 263130836933693530167218012160000000), (false, 295232799039604140847618609643520000000), (true, 371993326789901217467999448150835200000000),
    (false, 523022617466601111760007224100074291200000000), (true, 815915283247897734345611269596115894272000000000),
    (false, 1405006117752879898543142606244511569936384000000000), (true, 2658271574788448768043625811014615890319638528000000000),
    (false, 5502622159812088949850305428800254892961651752960000000000)]

def sinC : List (Bool × ℕ) :=
  [(true, 1), (false, 6), (true, 120), (false, 5040), (true, 362880), (false, 39916800), (true, 6227020800), (false, 1307674368000),
    (true, 355687428096000), (false, 121645100408832000), (true, 51090942171709440000), (false, 25852016738884976640000),
    (true, 15511210043330985984000000), (false, 10888869450418352160768000000), (true, 8841761993739701954543616000000),
    (false, 8222838654177922817725562880000000), (true, 8683317618811886495518194401280000000), (false, 10333147966386144929666651337523200000000),
    (true, 13763753091226345046315979581580902400000000), (false, 20397882081197443358640281739902897356800000000),
    (true, 33452526613163807108170062053440751665152000000000), (false, 60415263063373835637355132068513997507264512000000000),
    (true, 119622220865480194561963161495657715064383733760000000000), (false, 258623241511168180642964355153611979969197632389120000000000)]

theorem polyR_append (l : List (Bool × ℕ)) (c : Bool × ℕ) (x : ℝ) : polyR (l ++ [c]) x = polyR l x + x ^ l.length * coefR c := by
  induction l with
  | nil => simp [polyR]
  | cons a l ih => rw [List.cons_append, polyR, polyR, ih, List.length_cons]; ring

/-- The series as lists. -/
def series (o : ℕ) (k : ℕ) : List (Bool × ℕ) := (List.range k).map fun i => (i % 2 == 0, (2 * i + o).factorial)

theorem polyR_series (o k : ℕ) (x : ℝ) : polyR (series o k) (x * x) = ∑ i ∈ Finset.range k, (-1) ^ i * x ^ (2 * i) / ((2 * i + o).factorial : ℝ) := by
  induction k with
  | zero => simp [series, polyR]
  | succ k ih =>
    have e : series o (k + 1) = series o k ++ [(k % 2 == 0, (2 * k + o).factorial)] := by simp [series, List.range_succ]
    rw [e, polyR_append, ih, Finset.sum_range_succ]
    have hl : (series o k).length = k := by simp [series]
    have hx : (x * x) ^ k = x ^ (2 * k) := by rw [← pow_two, ← pow_mul]
    rw [hl, hx, coefR]
    congr 1
    rcases Nat.even_or_odd k with hk | hk
    · rw [if_pos (by simpa using Nat.even_iff.1 hk), hk.neg_one_pow]; ring
    · rw [if_neg (by simp [Nat.odd_iff.1 hk]), hk.neg_one_pow]; ring

theorem polyR_cosC (x : ℝ) : polyR cosC (x * x) = cosSum x 24 := by
  rw [show cosC = series 0 24 by decide +kernel, polyR_series]; rfl

theorem polyR_sinC (x : ℝ) : x * polyR sinC (x * x) = sinSum x 24 := by
  rw [show sinC = series 1 24 by decide +kernel, polyR_series, sinSum, Finset.mul_sum]
  exact Finset.sum_congr rfl fun i _ => by ring

/-- The cosine of a number of absolute value up to 5. -/
noncomputable def cos (x : Q) : Q := Bool.casesOn (x.small (Nat.mul 5 (Nat.pow 2 192))) .bad ((poly cosC (x.mul x)).widen (Nat.pow 2 110))
/-- The sine of a number of absolute value up to 5. -/
noncomputable def sin (x : Q) : Q := Bool.casesOn (x.small (Nat.mul 5 (Nat.pow 2 192))) .bad ((x.mul (poly sinC (x.mul x))).widen (Nat.pow 2 110))

theorem trig_five {x : ℝ} (hx : |x| ≤ 5) : |Real.cos x - cosSum x 24| * U ≤ ((Nat.pow 2 110 : ℕ) : ℝ) ∧ |Real.sin x - sinSum x 24| * U ≤ ((Nat.pow 2 110 : ℕ) : ℝ) := by
  have h := trig_bound (x := x) (k := 24) (by
    rw [div_le_iff₀ (by positivity)]; norm_num; linarith)
  have h48 : |x| ^ 48 ≤ 5 ^ 48 := pow_le_pow_left₀ (abs_nonneg x) hx 48
  have hc : |x| ^ (2 * 24) / ((2 * 24).factorial : ℝ) * 2 * U ≤ ((Nat.pow 2 110 : ℕ) : ℝ) := by
    have h1 : |x| ^ (2 * 24) / ((2 * 24).factorial : ℝ) ≤ 5 ^ 48 / ((2 * 24).factorial : ℝ) := div_le_div_of_nonneg_right h48 (by positivity)
    have h2 : (5 : ℝ) ^ 48 / ((2 * 24).factorial : ℝ) * 2 * U ≤ ((Nat.pow 2 110 : ℕ) : ℝ) := by
      rw [Nat.pow_eq, U]
      simp only [Nat.factorial]
      norm_num
    have hU := U_pos
    nlinarith
  exact ⟨(mul_le_mul_of_nonneg_right h.1 U_pos.le).trans hc, (mul_le_mul_of_nonneg_right h.2 U_pos.le).trans hc⟩

theorem small_five {q : Q} {x : ℝ} (h : Near q x) (hb : q.small (Nat.mul 5 (Nat.pow 2 192)) = true) : |x| ≤ 5 := by
  have := small_le h hb
  refine le_of_mul_le_mul_right (this.trans (le_of_eq ?_)) U_pos
  rw [Nat.mul_eq, Nat.pow_eq, U]
  norm_num

theorem near_cos {q : Q} {x : ℝ} (h : Near q x) : Near (cos q) (Real.cos x) := by
  unfold cos
  cases hb : q.small (Nat.mul 5 (Nat.pow 2 192))
  · trivial
  · refine near_widen (near_poly (by decide) (near_mul h h)) ?_
    rw [polyR_cosC]
    exact (trig_five (small_five h hb)).1

theorem near_sin {q : Q} {x : ℝ} (h : Near q x) : Near (sin q) (Real.sin x) := by
  unfold sin
  cases hb : q.small (Nat.mul 5 (Nat.pow 2 192))
  · trivial
  · refine near_widen (near_mul h (near_poly (by decide) (near_mul h h))) ?_
    rw [polyR_sinC]
    exact (trig_five (small_five h hb)).2

end Q
end XCFun.Num
