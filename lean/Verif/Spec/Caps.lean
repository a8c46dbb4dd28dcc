import Verif.Spec.Twin
/-! Vocabulary for C55: keywords that should be in capitals. -/
namespace SqlParse

/-- The issue says that the word `v` at `sp` should be in capitals. -/
def CapsIssue (v : List Char) (sp : Span) (i : Issue) : Prop := i.level = .warning ∧ i.message = .caps v ∧ i.span = sp

/-- The reserved keywords that are not always reported: the parser reads them without the check at some place. -/
def uncheckedKeywords : List Keyword := [.OR, .XOR, .AND, .BINARY, .COLLATE, .NOT, .LIKE, .INTERVAL, .TRUE, .FALSE, .NULL, .ASC, .DESC, .KEY, .INDEX, .SET, .DROP,
  .DEFAULT, .SQL, .VALUES, .JOIN, .OFFSET, .LEFT, .RIGHT, .SECOND_MICROSECOND, .MINUTE_MICROSECOND, .MINUTE_SECOND, .HOUR_MICROSECOND, .HOUR_SECOND,
  .HOUR_MINUTE, .DAY_MICROSECOND, .DAY_SECOND, .DAY_MINUTE, .DAY_HOUR, .YEAR_MONTH, .USE, .IGNORE, .FORCE, .INSERT, .REPLACE, .CURRENT_TIMESTAMP,
  .LOCALTIME, .LOCALTIMESTAMP, .UTC_TIMESTAMP, .UTC_DATE, .UTC_TIME, .CURRENT_DATE, .CURRENT_TIME, .IF]

/-- The keyword can not be an identifier, and is not one of those above. -/
def Keyword.watched (k : Keyword) : Bool := k.reserved && !uncheckedKeywords.contains k

end SqlParse
