import Verif.Model.StatusPage

/-!
# The average latency on the status page: `app/status_page.cpp:45-46,213`

The arithmetic is that of IEEE 754 `double` with rounding to nearest, ties to even. A finite double that is not
negative is written as the fraction it stands for. Not modelled: infinities, NaN and subnormal numbers, which the
quotients formed here never reach (a numerator of at most 2^63, denominators of at most 2^64 and 1000).
-/

namespace Ion

/-- The value `num / den`. -/
structure Frac where
  num : Nat
  den : Nat
deriving DecidableEq, Repr

/-- The natural number nearest to `a / b`, the even one of two. -/
def roundEven (a b : Nat) : Nat :=
  let q := a / b
  let r := a % b
  if 2 * r < b then q else if b < 2 * r then q + 1 else q + q % 2

/-- The double nearest to `a / b`: scaled by a power of two to lie between 2^52 and 2^54, then rounded to 53 bits.
(Conversions to `double` and the divisions of app/status_page.cpp:46.) -/
def toDouble (a b : Nat) : Frac :=
  if a = 0 then ⟨0, 1⟩ else
  let up := 2 ^ (53 + b.log2 - a.log2)
  let down := 2 ^ (a.log2 - (53 + b.log2))
  if a * up < 2 ^ 53 * (b * down) then ⟨roundEven (a * up) (b * down) * down, up⟩
  else ⟨roundEven (a * up) (2 * (b * down)) * (2 * down), up⟩

/-- Division of doubles. -/
def Frac.div (x y : Frac) : Frac := toDouble (x.num * y.den) (x.den * y.num)

/-- `(double)stats.total_duration_us / total / 1000.0` without its sign (app/status_page.cpp:46). -/
def averageMs (durationUs total : Nat) : Frac :=
  ((toDouble durationUs 1).div (toDouble total 1)).div (toDouble 1000 1)

/-- A double in hundredths, as `std::fixed << std::setprecision(2)` rounds it: to nearest, ties to even
(app/status_page.cpp:213). -/
def hundredths (x : Frac) : Nat := roundEven (x.num * 100) x.den

/-- Two decimals (app/status_page.cpp:213). -/
def fixed2 (n : Nat) : Bytes :=
  decimal (n / 100) ++ [0x2e, UInt8.ofNat (48 + n / 10 % 10), UInt8.ofNat (48 + n % 10)]

/-- The text of the average latency (app/status_page.cpp:45-46,213). -/
def averageText (durationUs : Int) (total : UInt64) : Bytes :=
  if total > 0 then
    (if durationUs < 0 then [0x2d] else []) ++ fixed2 (hundredths (averageMs durationUs.natAbs total.toNat))
  else fixed2 0

end Ion
