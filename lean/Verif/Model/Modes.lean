import Verif.Model.BitRep

/-! # Policies: correct rounding search, rounding modes; grisu_exact.h 1346-1732 -/

namespace Grisu

/-- `grisu_exact_correct_rounding`, grisu_exact.h 1347-1415. -/
inductive Crs
  | do_not_care
  | tie_to_even
  | tie_to_odd
  | tie_to_up
  | tie_to_down
  deriving DecidableEq, Repr

/-- `grisu_exact_rounding_modes::tag_t`, grisu_exact.h 1419-1423. -/
inductive Tag
  | to_nearest
  | left_closed_directed
  | right_closed_directed
  deriving DecidableEq, Repr

/-- The types of `interval_type`, grisu_exact.h 1424-1482: what `include_left_endpoint()` and
`include_right_endpoint()` return and the constant `is_symmetric`. -/
structure Interval where
  include_left_endpoint : Bool
  include_right_endpoint : Bool
  is_symmetric : Bool
  deriving DecidableEq, Repr

namespace Interval
/-- grisu_exact.h 1425-1435 -/
def symmetric_boundary (is_closed : Bool) : Interval := ⟨is_closed, is_closed, true⟩
/-- grisu_exact.h 1436-1445 -/
def asymmetric_boundary (is_left_closed : Bool) : Interval := ⟨is_left_closed, !is_left_closed, false⟩
/-- grisu_exact.h 1446-1454 -/
def closed : Interval := ⟨true, true, true⟩
/-- grisu_exact.h 1455-1463 -/
def «open» : Interval := ⟨false, false, true⟩
/-- grisu_exact.h 1464-1472 -/
def left_closed_right_open : Interval := ⟨true, false, false⟩
/-- grisu_exact.h 1473-1481 -/
def right_closed_left_open : Interval := ⟨false, true, false⟩
end Interval

/-- Types passed to `compute` as `IntervalTypeProvider`: grisu_exact.h 1484-1574 (the nearest
modes), 1576-1593 (always closed / open), 1664-1681 (directed). -/
inductive Provider
  | nearest_to_even
  | nearest_to_odd
  | nearest_toward_plus_infinity
  | nearest_toward_minus_infinity
  | nearest_toward_zero
  | nearest_away_from_zero
  | nearest_always_closed
  | nearest_always_open
  | left_closed_directed
  | right_closed_directed
  deriving DecidableEq, Repr

namespace Provider

/-- The member `tag` of each provider, grisu_exact.h 1485, 1500, 1515, 1530, 1546, 1561, 1578, 1586,
1666, 1674. -/
def tag : Provider → Tag
  | left_closed_directed => .left_closed_directed
  | right_closed_directed => .right_closed_directed
  | _ => .to_nearest

/-- `operator()` of each provider, grisu_exact.h 1495-1497, 1510-1512, 1525-1527, 1540-1542,
1556-1558, 1571-1573, 1581-1583, 1589-1591, 1669-1671, 1677-1679. -/
def interval (F : Fmt) (br : Nat) : Provider → Interval
  | nearest_to_even => .symmetric_boundary (br % 2 = 0)
  | nearest_to_odd => .symmetric_boundary (br % 2 ≠ 0)
  | nearest_toward_plus_infinity => .asymmetric_boundary (!BitRep.is_negative F br)
  | nearest_toward_minus_infinity => .asymmetric_boundary (BitRep.is_negative F br)
  | nearest_toward_zero => .right_closed_left_open
  | nearest_away_from_zero => .left_closed_right_open
  | nearest_always_closed => .closed
  | nearest_always_open => .open
  | left_closed_directed => .left_closed_right_open
  | right_closed_directed => .right_closed_left_open

end Provider

/-- The rounding modes a caller can select, grisu_exact.h 1484-1731. -/
inductive RoundingMode
  | nearest_to_even
  | nearest_to_odd
  | nearest_toward_plus_infinity
  | nearest_toward_minus_infinity
  | nearest_toward_zero
  | nearest_away_from_zero
  | nearest_to_even_static_boundary
  | nearest_to_odd_static_boundary
  | nearest_toward_plus_infinity_static_boundary
  | nearest_toward_minus_infinity_static_boundary
  | toward_plus_infinity
  | toward_minus_infinity
  | toward_zero
  | away_from_zero
  deriving DecidableEq, Repr

/-- `delegate` of each rounding mode: which provider is used; grisu_exact.h 1487-1493 and the
corresponding members up to 1569 (each passes itself), 1595-1662, 1683-1731. -/
def RoundingMode.provider (F : Fmt) (br : Nat) : RoundingMode → Provider
  | nearest_to_even => .nearest_to_even
  | nearest_to_odd => .nearest_to_odd
  | nearest_toward_plus_infinity => .nearest_toward_plus_infinity
  | nearest_toward_minus_infinity => .nearest_toward_minus_infinity
  | nearest_toward_zero => .nearest_toward_zero
  | nearest_away_from_zero => .nearest_away_from_zero
  | nearest_to_even_static_boundary =>
    if br % 2 = 0 then .nearest_always_closed else .nearest_always_open
  | nearest_to_odd_static_boundary =>
    if br % 2 = 0 then .nearest_always_open else .nearest_always_closed
  | nearest_toward_plus_infinity_static_boundary =>
    if BitRep.is_negative F br then .nearest_toward_zero else .nearest_away_from_zero
  | nearest_toward_minus_infinity_static_boundary =>
    if BitRep.is_negative F br then .nearest_away_from_zero else .nearest_toward_zero
  | toward_plus_infinity =>
    if BitRep.is_negative F br then .left_closed_directed else .right_closed_directed
  | toward_minus_infinity =>
    if BitRep.is_negative F br then .right_closed_directed else .left_closed_directed
  | toward_zero => .left_closed_directed
  | away_from_zero => .right_closed_directed

end Grisu
