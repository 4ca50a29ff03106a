import Verif.Bander.Curve

/-!
# Associativity of the addition law, as polynomial identities

Two identities modulo the three curve equations, with explicit cofactors (found by polynomial division).
-/

set_option autoImplicit false

namespace Verif.Bander

variable {K : Type} [Field K] {a d : K}

theorem assoc_x {x1 y1 x2 y2 x3 y3 : K} (h1 : OnCurve a d x1 y1) (h2 : OnCurve a d x2 y2) (h3 : OnCurve a d x3 y3) :
    ((x1 * y2 + x2 * y1) * (1 - d * x1 * x2 * y1 * y2) * y3 + x3 * (y1 * y2 - a * x1 * x2) * (1 + d * x1 * x2 * y1 * y2)) *
      ((1 + d * x2 * x3 * y2 * y3) * (1 - d * x2 * x3 * y2 * y3) + d * (x2 * y3 + x3 * y2) * (y2 * y3 - a * x2 * x3) * x1 * y1) =
    ((x2 * y3 + x3 * y2) * (1 - d * x2 * x3 * y2 * y3) * y1 + x1 * (y2 * y3 - a * x2 * x3) * (1 + d * x2 * x3 * y2 * y3)) *
      ((1 + d * x1 * x2 * y1 * y2) * (1 - d * x1 * x2 * y1 * y2) + d * (x1 * y2 + x2 * y1) * (y1 * y2 - a * x1 * x2) * x3 * y3) := by
  unfold OnCurve at h1 h2 h3
  linear_combination
    (
      - d * y1 * x2 * y2 ^ 4 * x3 ^ 2 * y3 - d * y1 * x2 ^ 2 * y2 ^ 3 * x3 - d * y1 * x2 ^ 3 * y2 ^ 2 * y3 + d * y1 * x2
      ^ 3 * y2 ^ 2 * y3 ^ 3 + d * x1 * x2 * y2 ^ 4 * x3 * y3 ^ 2 - d * x1 * x2 ^ 2 * y2 ^ 3 * y3 + d * x1 * x2 ^ 2 * y2
      ^ 3 * y3 ^ 3 + d ^ 2 * y1 * x2 ^ 3 * y2 ^ 4 * x3 ^ 2 * y3 + d ^ 2 * y1 * x2 ^ 4 * y2 ^ 3 * x3 * y3 ^ 2 - d ^ 2 *
      x1 * x2 ^ 3 * y2 ^ 4 * x3 * y3 ^ 2 + a * d * y1 * x2 ^ 2 * y2 ^ 3 * x3 ^ 3 - a * d * y1 * x2 ^ 4 * y2 * x3 * y3 ^
      2 + a * d * x1 * x2 ^ 3 * y2 ^ 2 * x3 + a * d ^ 2 * x1 * x2 ^ 4 * y2 ^ 3 * x3 ^ 2 * y3 - a ^ 2 * d * x1 * x2 ^ 3 *
      y2 ^ 2 * x3 ^ 3 - a ^ 2 * d * x1 * x2 ^ 4 * y2 * x3 ^ 2 * y3) * h1 + (
      y1 * y2 * x3 - y1 * y2 * x3 * y3 ^ 2 + y1 * x2 * y3 - y1 * x2 * y3 ^ 3 - y1 ^ 3 * y2 * x3 + y1 ^ 3 * y2 * x3 * y3
      ^ 2 - y1 ^ 3 * x2 * y3 + y1 ^ 3 * x2 * y3 ^ 3 + x1 * y2 * y3 - x1 * y2 * y3 ^ 3 - x1 * y1 ^ 2 * y2 * y3 + x1 * y1
      ^ 2 * y2 * y3 ^ 3 + d * y1 * y2 * x3 ^ 3 * y3 ^ 2 + d * y1 * x2 * x3 ^ 2 * y3 ^ 3 - d * y1 * x2 * y2 ^ 2 * x3 ^ 2
      * y3 - d * y1 * x2 ^ 2 * y2 * x3 * y3 ^ 2 - d * y1 ^ 3 * y2 * x3 ^ 3 * y3 ^ 2 - d * y1 ^ 3 * x2 * x3 ^ 2 * y3 ^ 3
      + d * y1 ^ 3 * x2 * y2 ^ 2 * x3 ^ 2 * y3 + d * y1 ^ 3 * x2 ^ 2 * y2 * x3 * y3 ^ 2 + d * x1 * y2 * x3 ^ 2 * y3 ^ 3
      + d * x1 * x2 * y2 ^ 2 * x3 * y3 ^ 2 - d * x1 * y1 ^ 2 * y2 * x3 ^ 2 * y3 ^ 3 - d * x1 * y1 ^ 2 * x2 * y2 ^ 2 * x3
      * y3 ^ 2 + d ^ 2 * x1 * y1 ^ 2 * x2 * y2 ^ 2 * x3 ^ 3 * y3 ^ 2 - d ^ 2 * x1 * y1 ^ 2 * x2 ^ 2 * y2 * x3 ^ 2 * y3 ^
      3 - d ^ 2 * x1 ^ 2 * y1 * x2 * y2 ^ 2 * x3 ^ 2 * y3 ^ 3 - a * y1 * y2 * x3 ^ 3 - a * y1 * x2 * x3 ^ 2 * y3 + a *
      y1 ^ 3 * y2 * x3 ^ 3 + a * y1 ^ 3 * x2 * x3 ^ 2 * y3 - a * x1 * y2 * x3 ^ 2 * y3 - a * x1 * x2 * x3 + a * x1 * x2
      * x3 * y3 ^ 2 + a * x1 * y1 ^ 2 * y2 * x3 ^ 2 * y3 + a * x1 * y1 ^ 2 * x2 * x3 - a * x1 * y1 ^ 2 * x2 * x3 * y3 ^
      2 - a * x1 ^ 2 * y1 * y2 * x3 + a * x1 ^ 2 * y1 * y2 * x3 * y3 ^ 2 - a * x1 ^ 2 * y1 * x2 * y3 + a * x1 ^ 2 * y1 *
      x2 * y3 ^ 3 - a * x1 ^ 3 * y2 * y3 + a * x1 ^ 3 * y2 * y3 ^ 3 - a * d * x1 * x2 * x3 ^ 3 * y3 ^ 2 - a * d * x1 *
      x2 ^ 2 * y2 * x3 ^ 2 * y3 + a * d * x1 * y1 ^ 2 * x2 * x3 ^ 3 * y3 ^ 2 + a * d * x1 * y1 ^ 2 * x2 ^ 2 * y2 * x3 ^
      2 * y3 - a * d * x1 ^ 2 * y1 * y2 * x3 ^ 3 * y3 ^ 2 - a * d * x1 ^ 2 * y1 * x2 * x3 ^ 2 * y3 ^ 3 + a * d * x1 ^ 2
      * y1 * x2 * y2 ^ 2 * x3 ^ 2 * y3 + a * d * x1 ^ 2 * y1 * x2 ^ 2 * y2 * x3 * y3 ^ 2 - a * d * x1 ^ 3 * y2 * x3 ^ 2
      * y3 ^ 3 - a * d * x1 ^ 3 * x2 * y2 ^ 2 * x3 * y3 ^ 2 - a * d ^ 2 * x1 ^ 2 * y1 * x2 ^ 2 * y2 * x3 ^ 3 * y3 ^ 2 +
      a ^ 2 * x1 * x2 * x3 ^ 3 - a ^ 2 * x1 * y1 ^ 2 * x2 * x3 ^ 3 + a ^ 2 * x1 ^ 2 * y1 * y2 * x3 ^ 3 + a ^ 2 * x1 ^ 2
      * y1 * x2 * x3 ^ 2 * y3 + a ^ 2 * x1 ^ 3 * y2 * x3 ^ 2 * y3 + a ^ 2 * x1 ^ 3 * x2 * x3 - a ^ 2 * x1 ^ 3 * x2 * x3
      * y3 ^ 2 + a ^ 2 * d * x1 ^ 3 * x2 * x3 ^ 3 * y3 ^ 2 + a ^ 2 * d * x1 ^ 3 * x2 ^ 2 * y2 * x3 ^ 2 * y3 - a ^ 3 * x1
      ^ 3 * x2 * x3 ^ 3) * h2 + (
      - y1 * y2 * x3 + y1 * y2 ^ 3 * x3 - y1 * x2 * y3 + y1 * x2 * y2 ^ 2 * y3 + y1 ^ 3 * y2 * x3 - y1 ^ 3 * y2 ^ 3 * x3
      + y1 ^ 3 * x2 * y3 - y1 ^ 3 * x2 * y2 ^ 2 * y3 - x1 * y2 * y3 + x1 * y2 ^ 3 * y3 + x1 * y1 ^ 2 * y2 * y3 - x1 * y1
      ^ 2 * y2 ^ 3 * y3 - d * x1 * y1 ^ 2 * x2 * y2 ^ 2 * x3 + d * x1 * y1 ^ 2 * x2 ^ 2 * y2 * y3 + d * x1 ^ 2 * y1 * x2
      * y2 ^ 2 * y3 + a * y1 * x2 ^ 2 * y2 * x3 + a * y1 * x2 ^ 3 * y3 - a * y1 ^ 3 * x2 ^ 2 * y2 * x3 - a * y1 ^ 3 * x2
      ^ 3 * y3 + a * x1 * x2 * x3 - a * x1 * x2 * y2 ^ 2 * x3 + a * x1 * x2 ^ 2 * y2 * y3 - a * x1 * y1 ^ 2 * x2 * x3 +
      a * x1 * y1 ^ 2 * x2 * y2 ^ 2 * x3 - a * x1 * y1 ^ 2 * x2 ^ 2 * y2 * y3 + a * x1 ^ 2 * y1 * y2 * x3 - a * x1 ^ 2 *
      y1 * y2 ^ 3 * x3 + a * x1 ^ 2 * y1 * x2 * y3 - a * x1 ^ 2 * y1 * x2 * y2 ^ 2 * y3 + a * x1 ^ 3 * y2 * y3 - a * x1
      ^ 3 * y2 ^ 3 * y3 + a * d * x1 ^ 2 * y1 * x2 ^ 2 * y2 * x3 - a ^ 2 * x1 * x2 ^ 3 * x3 + a ^ 2 * x1 * y1 ^ 2 * x2 ^
      3 * x3 - a ^ 2 * x1 ^ 2 * y1 * x2 ^ 2 * y2 * x3 - a ^ 2 * x1 ^ 2 * y1 * x2 ^ 3 * y3 - a ^ 2 * x1 ^ 3 * x2 * x3 + a
      ^ 2 * x1 ^ 3 * x2 * y2 ^ 2 * x3 - a ^ 2 * x1 ^ 3 * x2 ^ 2 * y2 * y3 + a ^ 3 * x1 ^ 3 * x2 ^ 3 * x3) * h3

theorem assoc_y {x1 y1 x2 y2 x3 y3 : K} (h1 : OnCurve a d x1 y1) (h2 : OnCurve a d x2 y2) (h3 : OnCurve a d x3 y3) :
    ((y1 * y2 - a * x1 * x2) * (1 + d * x1 * x2 * y1 * y2) * y3 - a * (x1 * y2 + x2 * y1) * (1 - d * x1 * x2 * y1 * y2) * x3) *
      ((1 + d * x2 * x3 * y2 * y3) * (1 - d * x2 * x3 * y2 * y3) - d * (x2 * y3 + x3 * y2) * (y2 * y3 - a * x2 * x3) * x1 * y1) =
    ((y2 * y3 - a * x2 * x3) * (1 + d * x2 * x3 * y2 * y3) * y1 - a * (x2 * y3 + x3 * y2) * (1 - d * x2 * x3 * y2 * y3) * x1) *
      ((1 + d * x1 * x2 * y1 * y2) * (1 - d * x1 * x2 * y1 * y2) - d * (x1 * y2 + x2 * y1) * (y1 * y2 - a * x1 * x2) * x3 * y3) := by
  unfold OnCurve at h1 h2 h3
  linear_combination
    (
      d * y1 * x2 * y2 ^ 4 * x3 * y3 ^ 2 - d * y1 * x2 ^ 2 * y2 ^ 3 * y3 + d * y1 * x2 ^ 2 * y2 ^ 3 * y3 ^ 3 - d ^ 2 *
      y1 * x2 ^ 3 * y2 ^ 4 * x3 * y3 ^ 2 + a * d * y1 * x2 ^ 3 * y2 ^ 2 * x3 + a * d * x1 * x2 * y2 ^ 4 * x3 ^ 2 * y3 +
      a * d * x1 * x2 ^ 2 * y2 ^ 3 * x3 + a * d * x1 * x2 ^ 3 * y2 ^ 2 * y3 - a * d * x1 * x2 ^ 3 * y2 ^ 2 * y3 ^ 3 + a
      * d ^ 2 * y1 * x2 ^ 4 * y2 ^ 3 * x3 ^ 2 * y3 - a * d ^ 2 * x1 * x2 ^ 3 * y2 ^ 4 * x3 ^ 2 * y3 - a * d ^ 2 * x1 *
      x2 ^ 4 * y2 ^ 3 * x3 * y3 ^ 2 - a ^ 2 * d * y1 * x2 ^ 3 * y2 ^ 2 * x3 ^ 3 - a ^ 2 * d * y1 * x2 ^ 4 * y2 * x3 ^ 2
      * y3 - a ^ 2 * d * x1 * x2 ^ 2 * y2 ^ 3 * x3 ^ 3 + a ^ 2 * d * x1 * x2 ^ 4 * y2 * x3 * y3 ^ 2) * h1 + (
      y1 * y2 * y3 - y1 * y2 * y3 ^ 3 - y1 ^ 3 * y2 * y3 + y1 ^ 3 * y2 * y3 ^ 3 + d * y1 * y2 * x3 ^ 2 * y3 ^ 3 + d * y1
      * x2 * y2 ^ 2 * x3 * y3 ^ 2 - d * y1 ^ 3 * y2 * x3 ^ 2 * y3 ^ 3 - d * y1 ^ 3 * x2 * y2 ^ 2 * x3 * y3 ^ 2 + d ^ 2 *
      x1 * y1 ^ 2 * x2 * y2 ^ 2 * x3 ^ 2 * y3 ^ 3 - a * y1 * y2 * x3 ^ 2 * y3 - a * y1 * x2 * x3 + a * y1 * x2 * x3 * y3
      ^ 2 + a * y1 ^ 3 * y2 * x3 ^ 2 * y3 + a * y1 ^ 3 * x2 * x3 - a * y1 ^ 3 * x2 * x3 * y3 ^ 2 - a * x1 * y2 * x3 + a
      * x1 * y2 * x3 * y3 ^ 2 - a * x1 * x2 * y3 + a * x1 * x2 * y3 ^ 3 + a * x1 * y1 ^ 2 * y2 * x3 - a * x1 * y1 ^ 2 *
      y2 * x3 * y3 ^ 2 + a * x1 * y1 ^ 2 * x2 * y3 - a * x1 * y1 ^ 2 * x2 * y3 ^ 3 - a * x1 ^ 2 * y1 * y2 * y3 + a * x1
      ^ 2 * y1 * y2 * y3 ^ 3 - a * d * y1 * x2 * x3 ^ 3 * y3 ^ 2 - a * d * y1 * x2 ^ 2 * y2 * x3 ^ 2 * y3 + a * d * y1 ^
      3 * x2 * x3 ^ 3 * y3 ^ 2 + a * d * y1 ^ 3 * x2 ^ 2 * y2 * x3 ^ 2 * y3 - a * d * x1 * y2 * x3 ^ 3 * y3 ^ 2 - a * d
      * x1 * x2 * x3 ^ 2 * y3 ^ 3 + a * d * x1 * x2 * y2 ^ 2 * x3 ^ 2 * y3 + a * d * x1 * x2 ^ 2 * y2 * x3 * y3 ^ 2 + a
      * d * x1 * y1 ^ 2 * y2 * x3 ^ 3 * y3 ^ 2 + a * d * x1 * y1 ^ 2 * x2 * x3 ^ 2 * y3 ^ 3 - a * d * x1 * y1 ^ 2 * x2 *
      y2 ^ 2 * x3 ^ 2 * y3 - a * d * x1 * y1 ^ 2 * x2 ^ 2 * y2 * x3 * y3 ^ 2 - a * d * x1 ^ 2 * y1 * y2 * x3 ^ 2 * y3 ^
      3 - a * d * x1 ^ 2 * y1 * x2 * y2 ^ 2 * x3 * y3 ^ 2 + a * d ^ 2 * x1 * y1 ^ 2 * x2 ^ 2 * y2 * x3 ^ 3 * y3 ^ 2 + a
      * d ^ 2 * x1 ^ 2 * y1 * x2 * y2 ^ 2 * x3 ^ 3 * y3 ^ 2 - a * d ^ 2 * x1 ^ 2 * y1 * x2 ^ 2 * y2 * x3 ^ 2 * y3 ^ 3 +
      a ^ 2 * y1 * x2 * x3 ^ 3 - a ^ 2 * y1 ^ 3 * x2 * x3 ^ 3 + a ^ 2 * x1 * y2 * x3 ^ 3 + a ^ 2 * x1 * x2 * x3 ^ 2 * y3
      - a ^ 2 * x1 * y1 ^ 2 * y2 * x3 ^ 3 - a ^ 2 * x1 * y1 ^ 2 * x2 * x3 ^ 2 * y3 + a ^ 2 * x1 ^ 2 * y1 * y2 * x3 ^ 2 *
      y3 + a ^ 2 * x1 ^ 2 * y1 * x2 * x3 - a ^ 2 * x1 ^ 2 * y1 * x2 * x3 * y3 ^ 2 + a ^ 2 * x1 ^ 3 * y2 * x3 - a ^ 2 *
      x1 ^ 3 * y2 * x3 * y3 ^ 2 + a ^ 2 * x1 ^ 3 * x2 * y3 - a ^ 2 * x1 ^ 3 * x2 * y3 ^ 3 + a ^ 2 * d * x1 ^ 2 * y1 * x2
      * x3 ^ 3 * y3 ^ 2 + a ^ 2 * d * x1 ^ 2 * y1 * x2 ^ 2 * y2 * x3 ^ 2 * y3 + a ^ 2 * d * x1 ^ 3 * y2 * x3 ^ 3 * y3 ^
      2 + a ^ 2 * d * x1 ^ 3 * x2 * x3 ^ 2 * y3 ^ 3 - a ^ 2 * d * x1 ^ 3 * x2 * y2 ^ 2 * x3 ^ 2 * y3 - a ^ 2 * d * x1 ^
      3 * x2 ^ 2 * y2 * x3 * y3 ^ 2 - a ^ 3 * x1 ^ 2 * y1 * x2 * x3 ^ 3 - a ^ 3 * x1 ^ 3 * y2 * x3 ^ 3 - a ^ 3 * x1 ^ 3
      * x2 * x3 ^ 2 * y3) * h2 + (
      - y1 * y2 * y3 + y1 * y2 ^ 3 * y3 + y1 ^ 3 * y2 * y3 - y1 ^ 3 * y2 ^ 3 * y3 - d * x1 * y1 ^ 2 * x2 * y2 ^ 2 * y3 +
      a * y1 * x2 * x3 - a * y1 * x2 * y2 ^ 2 * x3 + a * y1 * x2 ^ 2 * y2 * y3 - a * y1 ^ 3 * x2 * x3 + a * y1 ^ 3 * x2
      * y2 ^ 2 * x3 - a * y1 ^ 3 * x2 ^ 2 * y2 * y3 + a * x1 * y2 * x3 - a * x1 * y2 ^ 3 * x3 + a * x1 * x2 * y3 - a *
      x1 * x2 * y2 ^ 2 * y3 - a * x1 * y1 ^ 2 * y2 * x3 + a * x1 * y1 ^ 2 * y2 ^ 3 * x3 - a * x1 * y1 ^ 2 * x2 * y3 + a
      * x1 * y1 ^ 2 * x2 * y2 ^ 2 * y3 + a * x1 ^ 2 * y1 * y2 * y3 - a * x1 ^ 2 * y1 * y2 ^ 3 * y3 - a * d * x1 * y1 ^ 2
      * x2 ^ 2 * y2 * x3 - a * d * x1 ^ 2 * y1 * x2 * y2 ^ 2 * x3 + a * d * x1 ^ 2 * y1 * x2 ^ 2 * y2 * y3 - a ^ 2 * y1
      * x2 ^ 3 * x3 + a ^ 2 * y1 ^ 3 * x2 ^ 3 * x3 - a ^ 2 * x1 * x2 ^ 2 * y2 * x3 - a ^ 2 * x1 * x2 ^ 3 * y3 + a ^ 2 *
      x1 * y1 ^ 2 * x2 ^ 2 * y2 * x3 + a ^ 2 * x1 * y1 ^ 2 * x2 ^ 3 * y3 - a ^ 2 * x1 ^ 2 * y1 * x2 * x3 + a ^ 2 * x1 ^
      2 * y1 * x2 * y2 ^ 2 * x3 - a ^ 2 * x1 ^ 2 * y1 * x2 ^ 2 * y2 * y3 - a ^ 2 * x1 ^ 3 * y2 * x3 + a ^ 2 * x1 ^ 3 *
      y2 ^ 3 * x3 - a ^ 2 * x1 ^ 3 * x2 * y3 + a ^ 2 * x1 ^ 3 * x2 * y2 ^ 2 * y3 + a ^ 3 * x1 ^ 2 * y1 * x2 ^ 3 * x3 + a
      ^ 3 * x1 ^ 3 * x2 ^ 2 * y2 * x3 + a ^ 3 * x1 ^ 3 * x2 ^ 3 * y3) * h3

end Verif.Bander
