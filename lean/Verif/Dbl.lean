import Mathlib.Analysis.Real.Sqrt
import Mathlib.Analysis.SpecialFunctions.Trigonometric.Inverse
import Mathlib.Analysis.SpecialFunctions.Trigonometric.Arctan
import Mathlib.Analysis.SpecialFunctions.Complex.Arg
import Mathlib.Analysis.SpecialFunctions.Pow.Real

/-!
# Model of the C++ type `double`

`Dbl` is the extended number type used by the whole model: real numbers, signed infinities and
not-a-number.  Operations on finite values are exact (no rounding, overflow or signed zero); the
special values follow IEEE 754.  See DESIGN.md, "Number model".
-/

open Classical

noncomputable section

namespace Verif

/-- C++ `p ? a : b` / `if (p) ...`, for a condition given as a proposition -/
def cif {α : Sort*} (p : Prop) (a b : α) : α := if p then a else b

@[inherit_doc cif] macro "ifc " c:term " then " t:term " else " e:term : term => `(cif $c $t $e)

@[simp] theorem cif_true {α : Sort*} (a b : α) : cif True a b = a := if_pos trivial
@[simp] theorem cif_false {α : Sort*} (a b : α) : cif False a b = b := if_neg id
theorem cif_pos {α : Sort*} {p : Prop} {a b : α} (h : p) : cif p a b = a := if_pos h
theorem cif_neg {α : Sort*} {p : Prop} {a b : α} (h : ¬ p) : cif p a b = b := if_neg h
theorem cif_eq {α : Sort*} (p : Prop) [Decidable p] (a b : α) : cif p a b = if p then a else b := by
  by_cases h : p
  · rw [cif_pos h, if_pos h]
  · rw [cif_neg h, if_neg h]
theorem apply_cif {α β : Sort*} (f : α → β) (p : Prop) (a b : α) :
    f (cif p a b) = cif p (f a) (f b) := by
  by_cases h : p
  · rw [cif_pos h, cif_pos h]
  · rw [cif_neg h, cif_neg h]
/-- case distinction on a C++ condition -/
theorem cif_cases {α : Sort*} {p : Prop} {a b : α} {P : α → Prop} (h1 : p → P a) (h2 : ¬ p → P b) :
    P (cif p a b) := by
  by_cases h : p
  · rw [cif_pos h]; exact h1 h
  · rw [cif_neg h]; exact h2 h

/-- C++ `double`: a real number, an infinity (`true` = negative) or NaN. -/
inductive Dbl where
  | fin (x : ℝ)
  | inf (neg : Bool)
  | nan

namespace Dbl

instance : Inhabited Dbl := ⟨nan⟩

instance (n : ℕ) : OfNat Dbl n := ⟨fin (n : ℝ)⟩
instance : OfScientific Dbl := ⟨fun m s e => fin (OfScientific.ofScientific m s e : ℝ)⟩

/-- a value is finite (neither infinite nor NaN) -/
def IsFin (a : Dbl) : Prop := ∃ x : ℝ, a = fin x

/-- unary minus -/
def neg : Dbl → Dbl
  | fin x => fin (-x)
  | inf s => inf (!s)
  | nan => nan

/-- addition -/
def add : Dbl → Dbl → Dbl
  | fin x, fin y => fin (x + y)
  | fin _, inf s => inf s
  | inf s, fin _ => inf s
  | inf s, inf t => if s = t then inf s else nan
  | nan, _ => nan
  | _, nan => nan

/-- sign of a non-zero real as used by IEEE: `true` = negative -/
def sgn (x : ℝ) : Bool := decide (x < 0)

/-- multiplication -/
def mul : Dbl → Dbl → Dbl
  | fin x, fin y => fin (x * y)
  | fin x, inf s => if x = 0 then nan else inf (xor (sgn x) s)
  | inf s, fin x => if x = 0 then nan else inf (xor s (sgn x))
  | inf s, inf t => inf (xor s t)
  | nan, _ => nan
  | _, nan => nan

/-- division; a zero divisor is treated as `+0` -/
def div : Dbl → Dbl → Dbl
  | fin x, fin y => if y = 0 then (if x = 0 then nan else inf (sgn x)) else fin (x / y)
  | fin _, inf _ => fin 0
  | inf s, fin y => inf (xor s (sgn y))
  | inf _, inf _ => nan
  | nan, _ => nan
  | _, nan => nan

instance : Neg Dbl := ⟨neg⟩
instance : Add Dbl := ⟨add⟩
instance : Sub Dbl := ⟨fun a b => add a (neg b)⟩
instance : Mul Dbl := ⟨mul⟩
instance : Div Dbl := ⟨div⟩

/-- C++ `a < b` -/
def lt : Dbl → Dbl → Prop
  | fin x, fin y => x < y
  | fin _, inf s => s = false
  | inf s, fin _ => s = true
  | inf s, inf t => s = true ∧ t = false
  | nan, _ => False
  | _, nan => False

/-- C++ `a == b` (false if an operand is NaN) -/
def eqv : Dbl → Dbl → Prop
  | fin x, fin y => x = y
  | inf s, inf t => s = t
  | _, _ => False

instance : LT Dbl := ⟨lt⟩
/-- C++ `a <= b` -/
instance : LE Dbl := ⟨fun a b => lt a b ∨ eqv a b⟩

/-- `std::fabs` -/
def abs : Dbl → Dbl
  | fin x => fin |x|
  | inf _ => inf false
  | nan => nan

/-- `std::sqrt` -/
def sqrt : Dbl → Dbl
  | fin x => if x < 0 then nan else fin (Real.sqrt x)
  | inf s => if s then nan else inf false
  | nan => nan

/-- `std::sin` -/
def sin : Dbl → Dbl
  | fin x => fin (Real.sin x)
  | _ => nan

/-- `std::cos` -/
def cos : Dbl → Dbl
  | fin x => fin (Real.cos x)
  | _ => nan

/-- `std::tan`.  At an exact pole (no double is one) the value is `nan`. -/
def tan : Dbl → Dbl
  | fin x => if Real.cos x = 0 then nan else fin (Real.tan x)
  | _ => nan

/-- `std::atan` -/
def atan : Dbl → Dbl
  | fin x => fin (Real.arctan x)
  | inf s => fin (if s then -(Real.pi / 2) else Real.pi / 2)
  | nan => nan

/-- `std::asin` -/
def asin : Dbl → Dbl
  | fin x => if |x| ≤ 1 then fin (Real.arcsin x) else nan
  | _ => nan

/-- the real function underlying `std::atan2(y,x)`, value in (-π,π] -/
def ratan2 (y x : ℝ) : ℝ := Complex.arg ⟨x, y⟩

/-- `std::atan2(y,x)` -/
def atan2 : Dbl → Dbl → Dbl
  | fin y, fin x => fin (ratan2 y x)
  | fin y, inf s => fin (if s then (if y < 0 then -Real.pi else Real.pi) else 0)
  | inf s, fin _ => fin (if s then -(Real.pi / 2) else Real.pi / 2)
  | inf s, inf t => fin (if t then (if s then -(3 * Real.pi / 4) else 3 * Real.pi / 4)
                              else (if s then -(Real.pi / 4) else Real.pi / 4))
  | nan, _ => nan
  | _, nan => nan

/-- `std::log` -/
def log : Dbl → Dbl
  | fin x => if x < 0 then nan else if x = 0 then inf true else fin (Real.log x)
  | inf s => if s then nan else inf false
  | nan => nan

/-- `std::pow`.  Simplified: infinite arguments give `nan` (C++ may give 0, 1 or an infinity). -/
def pow : Dbl → Dbl → Dbl
  | fin x, fin y =>
      if 0 < x then fin (x ^ y)
      else if x = 0 then (if y < 0 then inf false else if y = 0 then fin 1 else fin 0)
      else if h : ∃ n : ℤ, y = n then fin (x ^ h.choose) else nan
  | _, _ => nan

/-- `std::max(a,b)`, i.e. `(a < b) ? b : a` -/
def max (a b : Dbl) : Dbl := ifc a < b then b else a

/-- `M_PI` -/
def pi : Dbl := fin Real.pi

/-! ### simp lemmas: everything on finite values reduces to the reals -/

@[simp] theorem ofNat_eq (n : ℕ) [n.AtLeastTwo] :
    (OfNat.ofNat n : Dbl) = fin (OfNat.ofNat n : ℝ) := rfl
@[simp] theorem zero_eq : (0 : Dbl) = fin 0 := by
  show fin ((0 : ℕ) : ℝ) = _; simp
@[simp] theorem one_eq : (1 : Dbl) = fin 1 := by
  show fin ((1 : ℕ) : ℝ) = _; simp
@[simp] theorem ofSci_eq (m : ℕ) (s : Bool) (e : ℕ) :
    (OfScientific.ofScientific m s e : Dbl) = fin (OfScientific.ofScientific m s e : ℝ) := rfl

@[simp] theorem fin_add (x y : ℝ) : fin x + fin y = fin (x + y) := rfl
@[simp] theorem fin_sub (x y : ℝ) : fin x - fin y = fin (x - y) := by
  show fin (x + -y) = _; rw [sub_eq_add_neg]
@[simp] theorem fin_mul (x y : ℝ) : fin x * fin y = fin (x * y) := rfl
@[simp] theorem fin_neg (x : ℝ) : -fin x = fin (-x) := rfl
@[simp] theorem fin_div {y : ℝ} (x : ℝ) (h : y ≠ 0) : fin x / fin y = fin (x / y) := by
  show div (fin x) (fin y) = _; simp [div, h]
theorem fin_div_zero {x : ℝ} (h : x ≠ 0) : fin x / fin 0 = inf (sgn x) := by
  show div (fin x) (fin 0) = _; simp [div, h]
@[simp] theorem fin_zero_div_zero : fin 0 / fin 0 = nan := by
  show div (fin 0) (fin 0) = _; simp [div]
theorem fin_div_eq (x y : ℝ) : fin x / fin y =
    if y = 0 then (if x = 0 then nan else inf (sgn x)) else fin (x / y) := rfl
@[simp] theorem fin_lt (x y : ℝ) : (fin x < fin y) ↔ x < y := Iff.rfl
@[simp] theorem fin_le (x y : ℝ) : (fin x ≤ fin y) ↔ x ≤ y := by
  show (x < y ∨ x = y) ↔ _; exact le_iff_lt_or_eq.symm
@[simp] theorem fin_eqv (x y : ℝ) : eqv (fin x) (fin y) ↔ x = y := Iff.rfl
@[simp] theorem fin_inj (x y : ℝ) : fin x = fin y ↔ x = y := by
  constructor
  · intro h; injection h
  · intro h; rw [h]
@[simp] theorem abs_fin (x : ℝ) : abs (fin x) = fin |x| := rfl
@[simp] theorem sqrt_fin {x : ℝ} (h : 0 ≤ x) : sqrt (fin x) = fin (Real.sqrt x) := by
  simp [sqrt, not_lt.mpr h]
theorem sqrt_neg {x : ℝ} (h : x < 0) : sqrt (fin x) = nan := by simp [sqrt, h]
@[simp] theorem sin_fin (x : ℝ) : sin (fin x) = fin (Real.sin x) := rfl
@[simp] theorem cos_fin (x : ℝ) : cos (fin x) = fin (Real.cos x) := rfl
@[simp] theorem tan_fin {x : ℝ} (h : Real.cos x ≠ 0) : tan (fin x) = fin (Real.tan x) := by
  simp [tan, h]
@[simp] theorem atan_fin (x : ℝ) : atan (fin x) = fin (Real.arctan x) := rfl
@[simp] theorem asin_fin {x : ℝ} (h : |x| ≤ 1) : asin (fin x) = fin (Real.arcsin x) := by
  simp [asin, h]
@[simp] theorem atan2_fin (y x : ℝ) : atan2 (fin y) (fin x) = fin (ratan2 y x) := rfl
@[simp] theorem log_fin {x : ℝ} (h : 0 < x) : log (fin x) = fin (Real.log x) := by
  simp [log, not_lt.mpr h.le, h.ne']
@[simp] theorem pow_fin {x : ℝ} (y : ℝ) (h : 0 < x) : pow (fin x) (fin y) = fin (x ^ y) := by
  simp [pow, h]
@[simp] theorem max_fin (x y : ℝ) : max (fin x) (fin y) = fin (Max.max x y) := by
  unfold max
  by_cases h : x < y
  · simp [h, max_eq_right h.le]
  · simp [h, max_eq_left (not_lt.mp h)]
theorem pi_eq : pi = fin Real.pi := rfl

/-! ### simp lemmas: special values -/

@[simp] theorem nan_add (a : Dbl) : nan + a = nan := by cases a <;> rfl
@[simp] theorem add_nan (a : Dbl) : a + nan = nan := by cases a <;> rfl
@[simp] theorem neg_nan : -nan = nan := rfl
@[simp] theorem neg_inf (s : Bool) : -(inf s) = inf (!s) := rfl
@[simp] theorem nan_sub (a : Dbl) : nan - a = nan := by cases a <;> rfl
@[simp] theorem sub_nan (a : Dbl) : a - nan = nan := by cases a <;> rfl
@[simp] theorem nan_mul (a : Dbl) : nan * a = nan := by cases a <;> rfl
@[simp] theorem mul_nan (a : Dbl) : a * nan = nan := by cases a <;> rfl
@[simp] theorem nan_div (a : Dbl) : nan / a = nan := by cases a <;> rfl
@[simp] theorem div_nan (a : Dbl) : a / nan = nan := by cases a <;> rfl
@[simp] theorem fin_add_inf (x : ℝ) (s : Bool) : fin x + inf s = inf s := rfl
@[simp] theorem inf_add_fin (x : ℝ) (s : Bool) : inf s + fin x = inf s := rfl
@[simp] theorem fin_sub_inf (x : ℝ) (s : Bool) : fin x - inf s = inf (!s) := rfl
@[simp] theorem inf_sub_fin (x : ℝ) (s : Bool) : inf s - fin x = inf s := rfl
theorem inf_add_inf (s t : Bool) : inf s + inf t = if s = t then inf s else nan := rfl
theorem fin_mul_inf (x : ℝ) (s : Bool) :
    fin x * inf s = if x = 0 then nan else inf (xor (sgn x) s) := rfl
theorem inf_mul_fin (x : ℝ) (s : Bool) :
    inf s * fin x = if x = 0 then nan else inf (xor s (sgn x)) := rfl
@[simp] theorem inf_mul_inf (s t : Bool) : inf s * inf t = inf (xor s t) := rfl
@[simp] theorem fin_div_inf (x : ℝ) (s : Bool) : fin x / inf s = fin 0 := rfl
@[simp] theorem inf_div_fin (x : ℝ) (s : Bool) : inf s / fin x = inf (xor s (sgn x)) := rfl
@[simp] theorem inf_div_inf (s t : Bool) : inf s / inf t = nan := rfl
@[simp] theorem zero_mul_inf (s : Bool) : fin 0 * inf s = nan := by simp [fin_mul_inf]
@[simp] theorem inf_mul_zero (s : Bool) : inf s * fin 0 = nan := by simp [inf_mul_fin]
@[simp] theorem sin_nan : sin nan = nan := rfl
@[simp] theorem cos_nan : cos nan = nan := rfl
@[simp] theorem sin_inf (s : Bool) : sin (inf s) = nan := rfl
@[simp] theorem cos_inf (s : Bool) : cos (inf s) = nan := rfl
@[simp] theorem sqrt_nan : sqrt nan = nan := rfl
@[simp] theorem asin_nan : asin nan = nan := rfl
@[simp] theorem atan_nan : atan nan = nan := rfl
@[simp] theorem abs_nan : abs nan = nan := rfl
@[simp] theorem abs_inf (s : Bool) : abs (inf s) = inf false := rfl
@[simp] theorem log_nan : log nan = nan := rfl
@[simp] theorem atan2_nan_left (a : Dbl) : atan2 nan a = nan := by cases a <;> rfl
@[simp] theorem atan2_nan_right (a : Dbl) : atan2 a nan = nan := by cases a <;> rfl
@[simp] theorem not_nan_lt (a : Dbl) : ¬ (nan < a) := by cases a <;> exact id
@[simp] theorem not_lt_nan (a : Dbl) : ¬ (a < nan) := by cases a <;> exact id
@[simp] theorem fin_lt_inf (x : ℝ) (s : Bool) : (fin x < inf s) ↔ s = false := Iff.rfl
@[simp] theorem inf_lt_fin (x : ℝ) (s : Bool) : (inf s < fin x) ↔ s = true := Iff.rfl
@[simp] theorem inf_lt_inf (s t : Bool) : (inf s < inf t) ↔ (s = true ∧ t = false) := Iff.rfl
@[simp] theorem not_nan_le (a : Dbl) : ¬ (nan ≤ a) := by
  cases a <;> (intro h; rcases h with h | h <;> exact h)
@[simp] theorem not_le_nan (a : Dbl) : ¬ (a ≤ nan) := by
  cases a <;> (intro h; rcases h with h | h <;> exact h)
@[simp] theorem fin_le_inf (x : ℝ) (s : Bool) : (fin x ≤ inf s) ↔ s = false := by
  show (s = false ∨ False) ↔ _; simp
@[simp] theorem inf_le_fin (x : ℝ) (s : Bool) : (inf s ≤ fin x) ↔ s = true := by
  show (s = true ∨ False) ↔ _; simp
@[simp] theorem not_nan_eqv (a : Dbl) : ¬ eqv nan a := by cases a <;> exact id
@[simp] theorem not_eqv_nan (a : Dbl) : ¬ eqv a nan := by cases a <;> exact id
@[simp] theorem not_inf_eqv_fin (s : Bool) (x : ℝ) : ¬ eqv (inf s) (fin x) := id
@[simp] theorem not_fin_eqv_inf (s : Bool) (x : ℝ) : ¬ eqv (fin x) (inf s) := id
@[simp] theorem nan_ne_fin (x : ℝ) : nan ≠ fin x := by intro h; cases h
@[simp] theorem fin_ne_nan (x : ℝ) : fin x ≠ nan := by intro h; cases h
@[simp] theorem inf_ne_fin (s : Bool) (x : ℝ) : inf s ≠ fin x := by intro h; cases h
@[simp] theorem fin_ne_inf (x : ℝ) (s : Bool) : fin x ≠ inf s := by intro h; cases h
@[simp] theorem nan_ne_inf (s : Bool) : nan ≠ inf s := by intro h; cases h
@[simp] theorem inf_ne_nan (s : Bool) : inf s ≠ nan := by intro h; cases h
@[simp] theorem isFin_fin (x : ℝ) : IsFin (fin x) := ⟨x, rfl⟩
@[simp] theorem not_isFin_nan : ¬ IsFin nan := by rintro ⟨x, h⟩; cases h
@[simp] theorem not_isFin_inf (s : Bool) : ¬ IsFin (inf s) := by rintro ⟨x, h⟩; cases h

/-- real facts about `atan2` -/
theorem ratan2_mem (y x : ℝ) : -Real.pi < ratan2 y x ∧ ratan2 y x ≤ Real.pi :=
  ⟨Complex.neg_pi_lt_arg _, Complex.arg_le_pi _⟩

theorem ratan2_polar {r θ : ℝ} (hr : 0 < r) (h1 : -Real.pi < θ) (h2 : θ ≤ Real.pi) :
    ratan2 (r * Real.sin θ) (r * Real.cos θ) = θ := by
  have h := Complex.arg_mul_cos_add_sin_mul_I hr ⟨h1, h2⟩
  unfold ratan2
  convert h using 2
  apply Complex.ext <;> simp [Complex.cos_ofReal_re, Complex.sin_ofReal_re]

theorem cos_ratan2 (y x : ℝ) (h : ¬ (x = 0 ∧ y = 0)) :
    Real.cos (ratan2 y x) = x / Real.sqrt (x ^ 2 + y ^ 2) := by
  have hne : (⟨x, y⟩ : ℂ) ≠ 0 := by
    intro h0; apply h; exact ⟨congrArg Complex.re h0, congrArg Complex.im h0⟩
  unfold ratan2
  rw [Complex.cos_arg hne]
  congr 1
  rw [Complex.norm_def, Complex.normSq_mk, pow_two, pow_two]

theorem sin_ratan2 (y x : ℝ) :
    Real.sin (ratan2 y x) = y / Real.sqrt (x ^ 2 + y ^ 2) := by
  unfold ratan2
  rw [Complex.sin_arg]
  congr 1
  rw [Complex.norm_def, Complex.normSq_mk, pow_two, pow_two]

end Dbl

end Verif
