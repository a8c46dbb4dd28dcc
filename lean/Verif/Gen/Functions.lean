import Verif.Ast
/-! Generated by tools/gen_functions.py from /repo/src/expression.rs; do not edit. -/
namespace SqlParse
/-- expression.rs:678-887 the named arms of `match &t` in `parse_function` -/
def functionTable : List (Keyword × Kind) := [
  (Keyword.ASCII, Kind.Function_Ascii),
  (Keyword.BIN, Kind.Function_Bin),
  (Keyword.BIT_LENGTH, Kind.Function_BitLength),
  (Keyword.CHAR_LENGTH, Kind.Function_CharacterLength),
  (Keyword.CHARACTER_LENGTH, Kind.Function_CharacterLength),
  (Keyword.CHR, Kind.Function_Chr),
  (Keyword.CONCAT, Kind.Function_Concat),
  (Keyword.CONCAT_WS, Kind.Function_ConcatWs),
  (Keyword.ELT, Kind.Function_Elt),
  (Keyword.EXPORT_SET, Kind.Function_ExportSet),
  (Keyword.EXTRACTVALUE, Kind.Function_ExtractValue),
  (Keyword.FIELD, Kind.Function_Field),
  (Keyword.FIND_IN_SET, Kind.Function_FindInSet),
  (Keyword.FORMAT, Kind.Function_Format),
  (Keyword.FROM_BASE64, Kind.Function_FromBase64),
  (Keyword.HEX, Kind.Function_Hex),
  (Keyword.INSERT, Kind.Function_Insert),
  (Keyword.INSTR, Kind.Function_InStr),
  (Keyword.LCASE, Kind.Function_LCase),
  (Keyword.LEFT, Kind.Function_Left),
  (Keyword.LENGTH, Kind.Function_Length),
  (Keyword.LENGTHB, Kind.Function_LengthB),
  (Keyword.LOAD_FILE, Kind.Function_LoadFile),
  (Keyword.LOCATE, Kind.Function_Locate),
  (Keyword.LOWER, Kind.Function_Lower),
  (Keyword.LPAD, Kind.Function_LPad),
  (Keyword.LTRIM, Kind.Function_LTrim),
  (Keyword.MAKE_SET, Kind.Function_MakeSet),
  (Keyword.MID, Kind.Function_Mid),
  (Keyword.NATURAL_SORT_KEY, Kind.Function_NaturalSortkey),
  (Keyword.OCTET_LENGTH, Kind.Function_OctetLength),
  (Keyword.ORD, Kind.Function_Ord),
  (Keyword.POSITION, Kind.Function_Position),
  (Keyword.QUOTE, Kind.Function_Quote),
  (Keyword.REPEAT, Kind.Function_Repeat),
  (Keyword.REPLACE, Kind.Function_Replace),
  (Keyword.REVERSE, Kind.Function_Reverse),
  (Keyword.RIGHT, Kind.Function_Right),
  (Keyword.RPAD, Kind.Function_RPad),
  (Keyword.RTRIM, Kind.Function_RTrim),
  (Keyword.SOUNDEX, Kind.Function_SoundEx),
  (Keyword.SPACE, Kind.Function_Space),
  (Keyword.STRCMP, Kind.Function_StrCmp),
  (Keyword.SUBSTR, Kind.Function_SubStr),
  (Keyword.SUBSTRING, Kind.Function_SubStr),
  (Keyword.SUBSTRING_INDEX, Kind.Function_SubStringIndex),
  (Keyword.TO_BASE64, Kind.Function_ToBase64),
  (Keyword.TO_CHAR, Kind.Function_ToChar),
  (Keyword.UCASE, Kind.Function_UCase),
  (Keyword.UNCOMPRESSED_LENGTH, Kind.Function_UncompressedLength),
  (Keyword.UNHEX, Kind.Function_UnHex),
  (Keyword.UPDATEXML, Kind.Function_UpdateXml),
  (Keyword.UPPER, Kind.Function_Upper),
  (Keyword.SFORMAT, Kind.Function_SFormat),
  (Keyword.EXISTS, Kind.Function_Exists),
  (Keyword.MIN, Kind.Function_Min),
  (Keyword.MAX, Kind.Function_Max),
  (Keyword.SUM, Kind.Function_Sum),
  (Keyword.VALUE, Kind.Function_Value),
  (Keyword.VALUES, Kind.Function_Value),
  (Keyword.LEAD, Kind.Function_Lead),
  (Keyword.LAG, Kind.Function_Lag),
  (Keyword.STARTS_WITH, Kind.Function_StartsWith),
  (Keyword.IFNULL, Kind.Function_IfNull),
  (Keyword.NULLIF, Kind.Function_NullIf),
  (Keyword.NVL, Kind.Function_IfNull),
  (Keyword.NVL2, Kind.Function_NVL2),
  (Keyword.IF, Kind.Function_If),
  (Keyword.ABS, Kind.Function_Abs),
  (Keyword.ACOS, Kind.Function_Acos),
  (Keyword.ASIN, Kind.Function_Asin),
  (Keyword.ATAN, Kind.Function_Atan),
  (Keyword.ATAN2, Kind.Function_Atan2),
  (Keyword.CEIL, Kind.Function_Ceil),
  (Keyword.CEILING, Kind.Function_Ceil),
  (Keyword.CONV, Kind.Function_Conv),
  (Keyword.COS, Kind.Function_Cos),
  (Keyword.COT, Kind.Function_Cot),
  (Keyword.CRC32, Kind.Function_Crc32),
  (Keyword.DEGREES, Kind.Function_Degrees),
  (Keyword.EXP, Kind.Function_Exp),
  (Keyword.FLOOR, Kind.Function_Floor),
  (Keyword.GREATEST, Kind.Function_Greatest),
  (Keyword.LN, Kind.Function_Ln),
  (Keyword.LOG, Kind.Function_Log),
  (Keyword.LOG10, Kind.Function_Log10),
  (Keyword.LOG2, Kind.Function_Log2),
  (Keyword.OCT, Kind.Function_Oct),
  (Keyword.PI, Kind.Function_Pi),
  (Keyword.POW, Kind.Function_Pow),
  (Keyword.POWER, Kind.Function_Pow),
  (Keyword.RADIANS, Kind.Function_Radians),
  (Keyword.RAND, Kind.Function_Rand),
  (Keyword.ROUND, Kind.Function_Round),
  (Keyword.SIGN, Kind.Function_Sign),
  (Keyword.SIN, Kind.Function_Sin),
  (Keyword.SQRT, Kind.Function_Sqrt),
  (Keyword.TAN, Kind.Function_Tan),
  (Keyword.TRUNCATE, Kind.Function_Truncate),
  (Keyword.CRC32C, Kind.Function_Crc32c),
  (Keyword.LEAST, Kind.Function_Least),
  (Keyword.ADDDATE, Kind.Function_AddDate),
  (Keyword.ADDTIME, Kind.Function_AddTime),
  (Keyword.CONVERT_TZ, Kind.Function_ConvertTz),
  (Keyword.CURDATE, Kind.Function_CurDate),
  (Keyword.CURRENT_DATE, Kind.Function_CurDate),
  (Keyword.CURRENT_TIME, Kind.Function_CurTime),
  (Keyword.CURTIME, Kind.Function_CurTime),
  (Keyword.DATE, Kind.Function_Date),
  (Keyword.HOUR, Kind.Function_Hour),
  (Keyword.DATEDIFF, Kind.Function_DateDiff),
  (Keyword.DATE_ADD, Kind.Function_AddDate),
  (Keyword.DATE_FORMAT, Kind.Function_DateFormat),
  (Keyword.DATE_SUB, Kind.Function_DateSub),
  (Keyword.DAY, Kind.Function_DayOfMonth),
  (Keyword.DAYOFMONTH, Kind.Function_DayOfMonth),
  (Keyword.DAYNAME, Kind.Function_DayName),
  (Keyword.DAYOFWEEK, Kind.Function_DayOfWeek),
  (Keyword.DAYOFYEAR, Kind.Function_DayOfYear),
  (Keyword.FROM_DAYS, Kind.Function_FromDays),
  (Keyword.CURRENT_TIMESTAMP, Kind.Function_CurrentTimestamp),
  (Keyword.LOCALTIME, Kind.Function_Now),
  (Keyword.LOCALTIMESTAMP, Kind.Function_Now),
  (Keyword.NOW, Kind.Function_Now),
  (Keyword.MAKEDATE, Kind.Function_MakeDate),
  (Keyword.MAKETIME, Kind.Function_MakeTime),
  (Keyword.MICROSECOND, Kind.Function_MicroSecond),
  (Keyword.MINUTE, Kind.Function_Minute),
  (Keyword.MONTH, Kind.Function_Month),
  (Keyword.MONTHNAME, Kind.Function_MonthName),
  (Keyword.PERIOD_ADD, Kind.Function_PeriodAdd),
  (Keyword.PERIOD_DIFF, Kind.Function_PeriodDiff),
  (Keyword.QUARTER, Kind.Function_Quarter),
  (Keyword.SECOND, Kind.Function_Second),
  (Keyword.SEC_TO_TIME, Kind.Function_SecToTime),
  (Keyword.STR_TO_DATE, Kind.Function_StrToDate),
  (Keyword.SUBDATE, Kind.Function_DateSub),
  (Keyword.SUBTIME, Kind.Function_SubTime),
  (Keyword.TIME, Kind.Function_Time),
  (Keyword.LAST_DAY, Kind.Function_LastDay),
  (Keyword.TIMEDIFF, Kind.Function_TimeDiff),
  (Keyword.TIMESTAMP, Kind.Function_Timestamp),
  (Keyword.TIME_FORMAT, Kind.Function_TimeFormat),
  (Keyword.TIME_TO_SEC, Kind.Function_TimeToSec),
  (Keyword.TO_DAYS, Kind.Function_ToDays),
  (Keyword.TO_SECONDS, Kind.Function_ToSeconds),
  (Keyword.UNIX_TIMESTAMP, Kind.Function_UnixTimestamp),
  (Keyword.UTC_DATE, Kind.Function_UtcDate),
  (Keyword.UTC_TIME, Kind.Function_UtcTime),
  (Keyword.UTC_TIMESTAMP, Kind.Function_UtcTimeStamp),
  (Keyword.WEEK, Kind.Function_Week),
  (Keyword.WEEKDAY, Kind.Function_Weekday),
  (Keyword.WEEKOFYEAR, Kind.Function_WeekOfYear),
  (Keyword.ADD_MONTHS, Kind.Function_AddMonths),
  (Keyword.FROM_UNIXTIME, Kind.Function_FromUnixTime),
  (Keyword.YEAR, Kind.Function_Year),
  (Keyword.YEARWEEK, Kind.Function_YearWeek),
  (Keyword.SYSDATE, Kind.Function_SysDate),
  (Keyword.JSON_ARRAY, Kind.Function_JsonArray),
  (Keyword.JSON_ARRAYAGG, Kind.Function_JsonArrayAgg),
  (Keyword.JSON_ARRAY_APPEND, Kind.Function_JsonArrayAppend),
  (Keyword.JSON_ARRAY_INSERT, Kind.Function_JsonArrayInsert),
  (Keyword.JSON_ARRAY_INTERSECT, Kind.Function_JsonArrayIntersect),
  (Keyword.JSON_COMPACT, Kind.Function_JsonCompact),
  (Keyword.JSON_CONTAINS, Kind.Function_JsonContains),
  (Keyword.JSON_CONTAINS_PATH, Kind.Function_JsonContainsPath),
  (Keyword.JSON_DEPTH, Kind.Function_JsonDepth),
  (Keyword.JSON_DETAILED, Kind.Function_JsonDetailed),
  (Keyword.JSON_EQUALS, Kind.Function_JsonEquals),
  (Keyword.JSON_EXISTS, Kind.Function_JsonExists),
  (Keyword.JSON_EXTRACT, Kind.Function_JsonExtract),
  (Keyword.JSON_INSERT, Kind.Function_JsonInsert),
  (Keyword.JSON_KEYS, Kind.Function_JsonKeys),
  (Keyword.JSON_LENGTH, Kind.Function_JsonLength),
  (Keyword.JSON_LOOSE, Kind.Function_JsonLoose),
  (Keyword.JSON_MERGE, Kind.Function_JsonMerge),
  (Keyword.JSON_MERGE_PATCH, Kind.Function_JsonMergePath),
  (Keyword.JSON_MERGE_PRESERVE, Kind.Function_JsonMergePerserve),
  (Keyword.JSON_NORMALIZE, Kind.Function_JsonNormalize),
  (Keyword.JSON_OBJECT, Kind.Function_JsonObject),
  (Keyword.JSON_OBJECT_FILTER_KEYS, Kind.Function_JsonObjectFilterKeys),
  (Keyword.JSON_OBJECT_TO_ARRAY, Kind.Function_JsonObjectToArray),
  (Keyword.JSON_OBJECTAGG, Kind.Function_JsonObjectAgg),
  (Keyword.JSON_OVERLAPS, Kind.Function_JsonOverlaps),
  (Keyword.JSON_PRETTY, Kind.Function_JsonPretty),
  (Keyword.JSON_QUERY, Kind.Function_JsonQuery),
  (Keyword.JSON_QUOTE, Kind.Function_JsonQuote),
  (Keyword.JSON_REMOVE, Kind.Function_JsonRemove),
  (Keyword.JSON_REPLACE, Kind.Function_JsonReplace),
  (Keyword.JSON_SCHEMA_VALID, Kind.Function_JsonSchemaValid),
  (Keyword.JSON_SEARCH, Kind.Function_JsonSearch),
  (Keyword.JSON_SET, Kind.Function_JsonSet),
  (Keyword.JSON_TABLE, Kind.Function_JsonTable),
  (Keyword.JSON_TYPE, Kind.Function_JsonType),
  (Keyword.JSON_UNQUOTE, Kind.Function_JsonUnquote),
  (Keyword.JSON_VALID, Kind.Function_JsonValid),
  (Keyword.JSON_VALUE, Kind.Function_JsonValue),
  (Keyword.STRFTIME, Kind.Function_Strftime),
  (Keyword.DATETIME, Kind.Function_Datetime)]
/-- expression.rs:374-398 `parse_time_unit` -/
def timeUnitTable : List (Keyword × Kind) := [
  (Keyword.MICROSECOND, Kind.TimeUnit_Microsecond),
  (Keyword.SECOND, Kind.TimeUnit_Second),
  (Keyword.MINUTE, Kind.TimeUnit_Minute),
  (Keyword.HOUR, Kind.TimeUnit_Hour),
  (Keyword.DAY, Kind.TimeUnit_Day),
  (Keyword.WEEK, Kind.TimeUnit_Week),
  (Keyword.MONTH, Kind.TimeUnit_Month),
  (Keyword.QUARTER, Kind.TimeUnit_Quarter),
  (Keyword.YEAR, Kind.TimeUnit_Year),
  (Keyword.SECOND_MICROSECOND, Kind.TimeUnit_SecondMicrosecond),
  (Keyword.MINUTE_MICROSECOND, Kind.TimeUnit_MinuteMicrosecond),
  (Keyword.MINUTE_SECOND, Kind.TimeUnit_MinuteSecond),
  (Keyword.HOUR_MICROSECOND, Kind.TimeUnit_HourMicrosecond),
  (Keyword.HOUR_SECOND, Kind.TimeUnit_HourSecond),
  (Keyword.HOUR_MINUTE, Kind.TimeUnit_HourMinute),
  (Keyword.DAY_MICROSECOND, Kind.TimeUnit_DayMicrosecond),
  (Keyword.DAY_SECOND, Kind.TimeUnit_DaySecond),
  (Keyword.DAY_MINUTE, Kind.TimeUnit_DayMinute),
  (Keyword.DAY_HOUR, Kind.TimeUnit_DayHour),
  (Keyword.YEAR_MONTH, Kind.TimeUnit_YearMonth)]
end SqlParse
