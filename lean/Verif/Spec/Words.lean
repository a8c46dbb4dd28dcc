import Verif.Ast
/-!
Specification of the accepted language, part 0: the words of the language, and the values of literals.  Written down
separately from the tables of the model, so that neither can change without the other.
-/
namespace SqlParse

/-- The functions: the word before `(`, and the kind of the AST node. -/
def functionWords : List (Keyword × Kind) := [
  (.ASCII, .Function_Ascii), (.BIN, .Function_Bin), (.BIT_LENGTH, .Function_BitLength),
  (.CHAR_LENGTH, .Function_CharacterLength), (.CHARACTER_LENGTH, .Function_CharacterLength), (.CHR, .Function_Chr),
  (.CONCAT, .Function_Concat), (.CONCAT_WS, .Function_ConcatWs), (.ELT, .Function_Elt),
  (.EXPORT_SET, .Function_ExportSet), (.EXTRACTVALUE, .Function_ExtractValue), (.FIELD, .Function_Field),
  (.FIND_IN_SET, .Function_FindInSet), (.FORMAT, .Function_Format), (.FROM_BASE64, .Function_FromBase64),
  (.HEX, .Function_Hex), (.INSERT, .Function_Insert), (.INSTR, .Function_InStr), (.LCASE, .Function_LCase),
  (.LEFT, .Function_Left), (.LENGTH, .Function_Length), (.LENGTHB, .Function_LengthB),
  (.LOAD_FILE, .Function_LoadFile), (.LOCATE, .Function_Locate), (.LOWER, .Function_Lower), (.LPAD, .Function_LPad),
  (.LTRIM, .Function_LTrim), (.MAKE_SET, .Function_MakeSet), (.MID, .Function_Mid),
  (.NATURAL_SORT_KEY, .Function_NaturalSortkey), (.OCTET_LENGTH, .Function_OctetLength), (.ORD, .Function_Ord),
  (.POSITION, .Function_Position), (.QUOTE, .Function_Quote), (.REPEAT, .Function_Repeat),
  (.REPLACE, .Function_Replace), (.REVERSE, .Function_Reverse), (.RIGHT, .Function_Right), (.RPAD, .Function_RPad),
  (.RTRIM, .Function_RTrim), (.SOUNDEX, .Function_SoundEx), (.SPACE, .Function_Space), (.STRCMP, .Function_StrCmp),
  (.SUBSTR, .Function_SubStr), (.SUBSTRING, .Function_SubStr), (.SUBSTRING_INDEX, .Function_SubStringIndex),
  (.TO_BASE64, .Function_ToBase64), (.TO_CHAR, .Function_ToChar), (.UCASE, .Function_UCase),
  (.UNCOMPRESSED_LENGTH, .Function_UncompressedLength), (.UNHEX, .Function_UnHex), (.UPDATEXML, .Function_UpdateXml),
  (.UPPER, .Function_Upper), (.SFORMAT, .Function_SFormat), (.EXISTS, .Function_Exists), (.MIN, .Function_Min),
  (.MAX, .Function_Max), (.SUM, .Function_Sum), (.VALUE, .Function_Value), (.VALUES, .Function_Value),
  (.LEAD, .Function_Lead), (.LAG, .Function_Lag), (.STARTS_WITH, .Function_StartsWith), (.IFNULL, .Function_IfNull),
  (.NULLIF, .Function_NullIf), (.NVL, .Function_IfNull), (.NVL2, .Function_NVL2), (.IF, .Function_If),
  (.ABS, .Function_Abs), (.ACOS, .Function_Acos), (.ASIN, .Function_Asin), (.ATAN, .Function_Atan),
  (.ATAN2, .Function_Atan2), (.CEIL, .Function_Ceil), (.CEILING, .Function_Ceil), (.CONV, .Function_Conv),
  (.COS, .Function_Cos), (.COT, .Function_Cot), (.CRC32, .Function_Crc32), (.DEGREES, .Function_Degrees),
  (.EXP, .Function_Exp), (.FLOOR, .Function_Floor), (.GREATEST, .Function_Greatest), (.LN, .Function_Ln),
  (.LOG, .Function_Log), (.LOG10, .Function_Log10), (.LOG2, .Function_Log2), (.OCT, .Function_Oct),
  (.PI, .Function_Pi), (.POW, .Function_Pow), (.POWER, .Function_Pow), (.RADIANS, .Function_Radians),
  (.RAND, .Function_Rand), (.ROUND, .Function_Round), (.SIGN, .Function_Sign), (.SIN, .Function_Sin),
  (.SQRT, .Function_Sqrt), (.TAN, .Function_Tan), (.TRUNCATE, .Function_Truncate), (.CRC32C, .Function_Crc32c),
  (.LEAST, .Function_Least), (.ADDDATE, .Function_AddDate), (.ADDTIME, .Function_AddTime),
  (.CONVERT_TZ, .Function_ConvertTz), (.CURDATE, .Function_CurDate), (.CURRENT_DATE, .Function_CurDate),
  (.CURRENT_TIME, .Function_CurTime), (.CURTIME, .Function_CurTime), (.DATE, .Function_Date), (.HOUR, .Function_Hour),
  (.DATEDIFF, .Function_DateDiff), (.DATE_ADD, .Function_AddDate), (.DATE_FORMAT, .Function_DateFormat),
  (.DATE_SUB, .Function_DateSub), (.DAY, .Function_DayOfMonth), (.DAYOFMONTH, .Function_DayOfMonth),
  (.DAYNAME, .Function_DayName), (.DAYOFWEEK, .Function_DayOfWeek), (.DAYOFYEAR, .Function_DayOfYear),
  (.FROM_DAYS, .Function_FromDays), (.CURRENT_TIMESTAMP, .Function_CurrentTimestamp), (.LOCALTIME, .Function_Now),
  (.LOCALTIMESTAMP, .Function_Now), (.NOW, .Function_Now), (.MAKEDATE, .Function_MakeDate),
  (.MAKETIME, .Function_MakeTime), (.MICROSECOND, .Function_MicroSecond), (.MINUTE, .Function_Minute),
  (.MONTH, .Function_Month), (.MONTHNAME, .Function_MonthName), (.PERIOD_ADD, .Function_PeriodAdd),
  (.PERIOD_DIFF, .Function_PeriodDiff), (.QUARTER, .Function_Quarter), (.SECOND, .Function_Second),
  (.SEC_TO_TIME, .Function_SecToTime), (.STR_TO_DATE, .Function_StrToDate), (.SUBDATE, .Function_DateSub),
  (.SUBTIME, .Function_SubTime), (.TIME, .Function_Time), (.LAST_DAY, .Function_LastDay),
  (.TIMEDIFF, .Function_TimeDiff), (.TIMESTAMP, .Function_Timestamp), (.TIME_FORMAT, .Function_TimeFormat),
  (.TIME_TO_SEC, .Function_TimeToSec), (.TO_DAYS, .Function_ToDays), (.TO_SECONDS, .Function_ToSeconds),
  (.UNIX_TIMESTAMP, .Function_UnixTimestamp), (.UTC_DATE, .Function_UtcDate), (.UTC_TIME, .Function_UtcTime),
  (.UTC_TIMESTAMP, .Function_UtcTimeStamp), (.WEEK, .Function_Week), (.WEEKDAY, .Function_Weekday),
  (.WEEKOFYEAR, .Function_WeekOfYear), (.ADD_MONTHS, .Function_AddMonths), (.FROM_UNIXTIME, .Function_FromUnixTime),
  (.YEAR, .Function_Year), (.YEARWEEK, .Function_YearWeek), (.SYSDATE, .Function_SysDate),
  (.JSON_ARRAY, .Function_JsonArray), (.JSON_ARRAYAGG, .Function_JsonArrayAgg),
  (.JSON_ARRAY_APPEND, .Function_JsonArrayAppend), (.JSON_ARRAY_INSERT, .Function_JsonArrayInsert),
  (.JSON_ARRAY_INTERSECT, .Function_JsonArrayIntersect), (.JSON_COMPACT, .Function_JsonCompact),
  (.JSON_CONTAINS, .Function_JsonContains), (.JSON_CONTAINS_PATH, .Function_JsonContainsPath),
  (.JSON_DEPTH, .Function_JsonDepth), (.JSON_DETAILED, .Function_JsonDetailed), (.JSON_EQUALS, .Function_JsonEquals),
  (.JSON_EXISTS, .Function_JsonExists), (.JSON_EXTRACT, .Function_JsonExtract), (.JSON_INSERT, .Function_JsonInsert),
  (.JSON_KEYS, .Function_JsonKeys), (.JSON_LENGTH, .Function_JsonLength), (.JSON_LOOSE, .Function_JsonLoose),
  (.JSON_MERGE, .Function_JsonMerge), (.JSON_MERGE_PATCH, .Function_JsonMergePath),
  (.JSON_MERGE_PRESERVE, .Function_JsonMergePerserve), (.JSON_NORMALIZE, .Function_JsonNormalize),
  (.JSON_OBJECT, .Function_JsonObject), (.JSON_OBJECT_FILTER_KEYS, .Function_JsonObjectFilterKeys),
  (.JSON_OBJECT_TO_ARRAY, .Function_JsonObjectToArray), (.JSON_OBJECTAGG, .Function_JsonObjectAgg),
  (.JSON_OVERLAPS, .Function_JsonOverlaps), (.JSON_PRETTY, .Function_JsonPretty), (.JSON_QUERY, .Function_JsonQuery),
  (.JSON_QUOTE, .Function_JsonQuote), (.JSON_REMOVE, .Function_JsonRemove), (.JSON_REPLACE, .Function_JsonReplace),
  (.JSON_SCHEMA_VALID, .Function_JsonSchemaValid), (.JSON_SEARCH, .Function_JsonSearch),
  (.JSON_SET, .Function_JsonSet), (.JSON_TABLE, .Function_JsonTable), (.JSON_TYPE, .Function_JsonType),
  (.JSON_UNQUOTE, .Function_JsonUnquote), (.JSON_VALID, .Function_JsonValid), (.JSON_VALUE, .Function_JsonValue),
  (.STRFTIME, .Function_Strftime), (.DATETIME, .Function_Datetime)]

/-- Units of time. -/
def timeUnitWords : List (Keyword × Kind) := [
  (.MICROSECOND, .TimeUnit_Microsecond), (.SECOND, .TimeUnit_Second), (.MINUTE, .TimeUnit_Minute),
  (.HOUR, .TimeUnit_Hour), (.DAY, .TimeUnit_Day), (.WEEK, .TimeUnit_Week), (.MONTH, .TimeUnit_Month),
  (.QUARTER, .TimeUnit_Quarter), (.YEAR, .TimeUnit_Year), (.SECOND_MICROSECOND, .TimeUnit_SecondMicrosecond),
  (.MINUTE_MICROSECOND, .TimeUnit_MinuteMicrosecond), (.MINUTE_SECOND, .TimeUnit_MinuteSecond),
  (.HOUR_MICROSECOND, .TimeUnit_HourMicrosecond), (.HOUR_SECOND, .TimeUnit_HourSecond),
  (.HOUR_MINUTE, .TimeUnit_HourMinute), (.DAY_MICROSECOND, .TimeUnit_DayMicrosecond),
  (.DAY_SECOND, .TimeUnit_DaySecond), (.DAY_MINUTE, .TimeUnit_DayMinute), (.DAY_HOUR, .TimeUnit_DayHour),
  (.YEAR_MONTH, .TimeUnit_YearMonth)]

/-- Functions that may be written without parentheses. -/
def nullaryWords : List (Keyword × Kind) := [
  (.CURRENT_TIMESTAMP, .Function_CurrentTimestamp), (.LOCALTIME, .Function_Now), (.LOCALTIMESTAMP, .Function_Now),
  (.UTC_TIMESTAMP, .Function_UtcTimeStamp), (.UTC_DATE, .Function_UtcDate), (.UTC_TIME, .Function_UtcTime),
  (.CURRENT_DATE, .Function_CurDate), (.CURRENT_TIME, .Function_CurTime)]

/-- The words that begin an index hint. -/
def hintUseWords : List (Keyword × Kind) := [
  (.USE, .IndexHintUse_Use), (.IGNORE, .IndexHintUse_Ignore), (.FORCE, .IndexHintUse_Force)]

/-- The second word of an index hint. -/
def hintTypeWords : List (Keyword × Kind) := [
  (.INDEX, .IndexHintType_Index), (.KEY, .IndexHintType_Key)]

/-- Flags after SELECT. -/
def selectFlagWords : List (Keyword × Kind) := [
  (.ALL, .SelectFlag_All), (.DISTINCT, .SelectFlag_Distinct), (.DISTINCTROW, .SelectFlag_DistinctRow),
  (.HIGH_PRIORITY, .SelectFlag_HighPriority), (.STRAIGHT_JOIN, .SelectFlag_StraightJoin),
  (.SQL_SMALL_RESULT, .SelectFlag_SqlSmallResult), (.SQL_BIG_RESULT, .SelectFlag_SqlBigResult),
  (.SQL_BUFFER_RESULT, .SelectFlag_SqlBufferResult), (.SQL_NO_CACHE, .SelectFlag_SqlNoCache),
  (.SQL_CALC_FOUND_ROWS, .SelectFlag_SqlCalcFoundRows)]

/-- Flags after DELETE. -/
def deleteFlagWords : List (Keyword × Kind) := [
  (.LOW_PRIORITY, .DeleteFlag_LowPriority), (.QUICK, .DeleteFlag_Quick), (.IGNORE, .DeleteFlag_Ignore)]

/-- Flags after UPDATE. -/
def updateFlagWords : List (Keyword × Kind) := [
  (.LOW_PRIORITY, .UpdateFlag_LowPriority), (.IGNORE, .UpdateFlag_Ignore)]

/-- INSERT or REPLACE. -/
def insertTypeWords : List (Keyword × Kind) := [
  (.INSERT, .InsertReplaceType_Insert), (.REPLACE, .InsertReplaceType_Replace)]

/-- Flags after INSERT or REPLACE. -/
def insertFlagWords : List (Keyword × Kind) := [
  (.LOW_PRIORITY, .InsertReplaceFlag_LowPriority), (.HIGH_PRIORITY, .InsertReplaceFlag_HighPriority),
  (.DELAYED, .InsertReplaceFlag_Delayed), (.IGNORE, .InsertReplaceFlag_Ignore)]

/-- USING ..: types of indexes. -/
def indexTypeWords : List (Keyword × Kind) := [
  (.BTREE, .IndexOption_IndexTypeBTree), (.HASH, .IndexOption_IndexTypeHash), (.RTREE, .IndexOption_IndexTypeRTree)]

/-- ALGORITHM = .. -/
def algorithmWords : List (Keyword × Kind) := [
  (.UNDEFINED, .CreateAlgorithm_Undefined), (.MERGE, .CreateAlgorithm_Merge),
  (.TEMPTABLE, .CreateAlgorithm_TempTable)]

/-- When a trigger runs. -/
def triggerTimeWords : List (Keyword × Kind) := [
  (.AFTER, .TriggerTime_After), (.BEFORE, .TriggerTime_Before)]

/-- What a trigger is for. -/
def triggerEventWords : List (Keyword × Kind) := [
  (.UPDATE, .TriggerEvent_Update), (.INSERT, .TriggerEvent_Insert), (.DELETE, .TriggerEvent_Delete)]

/-- What SIGNAL may set. -/
def signalWords : List (Keyword × Kind) := [
  (.CLASS_ORIGIN, .SignalConditionInformationName_ClassOrigin),
  (.SUBCLASS_ORIGIN, .SignalConditionInformationName_SubclassOrigin),
  (.MESSAGE_TEXT, .SignalConditionInformationName_MessageText),
  (.MYSQL_ERRNO, .SignalConditionInformationName_MysqlErrno),
  (.CONSTRAINT_CATALOG, .SignalConditionInformationName_ConstraintCatalog),
  (.CONSTRAINT_SCHEMA, .SignalConditionInformationName_ConstraintSchema),
  (.CONSTRAINT_NAME, .SignalConditionInformationName_ConstraintName),
  (.CATALOG_NAME, .SignalConditionInformationName_CatalogName),
  (.SCHEMA_NAME, .SignalConditionInformationName_SchemaName),
  (.TABLE_NAME, .SignalConditionInformationName_TableName),
  (.COLUMN_NAME, .SignalConditionInformationName_ColumnName),
  (.CURSOR_NAME, .SignalConditionInformationName_CursorName)]

/-- A word that is not reserved. -/
def plainWord : Token → Bool
  | .ident _ k => !k.reserved
  | _ => false

/-- The statement that is followed by data: COPY .. FROM STDIN. -/
def takesData (v : SAst) : Bool :=
  match v.ast with
  | .node .Copy _ => true
  | _ => false

/-- The value of a decimal numeral. -/
def numberOf (ds : List Char) : Nat := ds.foldl (fun n c => n * 10 + (c.toNat - 48)) 0

/-- The text of a string literal (as the parser understands it): a single quote stands for itself, the character after
it is dropped. -/
def unquote : List Char → List Char
  | [] => []
  | [c] => [c]
  | c :: d :: r => if c = '\'' then c :: unquote r else c :: unquote (d :: r)

/-- The value of a string token. -/
def stringText : Token → Option (List Char)
  | .singleQuotedString v => some (unquote v)
  | .doubleQuotedString v => some (if '"' ∈ v ∨ '\\' ∈ v then unquote v else v)
  | _ => none

/-- The text `w` is the number `n` of an interval: digits, maybe after `+`, at most 2^63-1. -/
def IntervalNumber (w : List Char) (n : Nat) : Prop :=
  ∃ ds, (w = ds ∨ w = '+' :: ds) ∧ ds ≠ [] ∧ (∀ c ∈ ds, '0' ≤ c ∧ c ≤ '9') ∧ n = numberOf ds ∧ n < 2 ^ 63

/-- The text of an interval: numbers, with one of `:!,.-` or a space between them. -/
inductive IntervalText : List Char → List Nat → Prop where
  | one {w : List Char} {n : Nat} (h : IntervalNumber w n) : IntervalText w [n]
  | cons {w v : List Char} {c : Char} {n : Nat} {l : List Nat} (h : IntervalNumber w n) (hc : c ∈ [':', '!', ',', '.', '-', ' '])
      (hs : IntervalText v l) : IntervalText (w ++ c :: v) (n :: l)

end SqlParse
