import Mathlib.Algebra.Field.Defs
import Mathlib.Algebra.Order.Field.Rat

/-! The default hot water use of a building, in gallons per day and person, unit, bed, meal or student. -/

namespace Eco.Spec

/-- The published use per unit of each type of building, in thousandths of a gallon per day. -/
def milliGallons : String → Option ℕ
  | "mens_dorm" => some 23600
  | "womens_dorm" => some 19600
  | "motel" => some 21400
  | "nursing_home" => some 23400
  | "office_building" => some 2100
  | "food_service_a" => some 11032
  | "food_service_b" => some 6440
  | "apartment" => some 54600
  | "elementary_school" => some 1340
  | "junior_high" => some 3750
  | "senior_high" => some 3260
  | _ => none

end Eco.Spec
