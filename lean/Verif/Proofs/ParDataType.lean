import Verif.Proofs.ParExpr
/-! Corresponding runs of data_type.rs. -/
namespace SqlParse
variable {E : Par}

theorem parseWidth_par : PR E (vr E) parseWidth parseWidth := by
  unfold parseWidth
  have := @isRParen_end E
  pw
theorem parseWidthReq_par : PR E (vr E) parseWidthReq parseWidthReq := by
  unfold parseWidthReq; pw
theorem enumSetLoop_par : PR E (vr E) enumSetLoop enumSetLoop := by
  unfold enumSetLoop; pw
theorem enumSetValues_par : PR E (vr E) enumSetValues enumSetValues := by
  unfold enumSetValues
  have := @isRParen_end E
  pw
theorem typeOf_par : PR E (vr E) typeOf typeOf := by unfold typeOf; pw
theorem notNull_par : PR E (vr E) notNull notNull := by unfold notNull; pw
theorem parenExprOrInvalid_par : PR E (vr E) parenExprOrInvalid parenExprOrInvalid := by
  unfold parenExprOrInvalid
  have := @isRParen_end E
  pw
theorem typeProperty_par {b : Bool} : PR E (vr E) (typeProperty b) (typeProperty b) := by unfold typeProperty; pw
theorem parseDataType_par {b : Bool} : PR E (vr E) (parseDataType b) (parseDataType b) := by unfold parseDataType; pw

end SqlParse
