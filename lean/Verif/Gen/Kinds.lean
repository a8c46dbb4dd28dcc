/-! Generated by tools/gen_kinds.py: the structs and enum variants of the AST. -/
namespace SqlParse
/-- One kind per struct or enum variant of the Rust AST. -/
inductive Kind where
  | AlterColumnAction_DropDefault | AlterColumnAction_DropNotNull | AlterColumnAction_SetDefault
  | AlterColumnAction_SetNotNull | AlterColumnAction_Type | AlterSpecification_AddColumn
  | AlterSpecification_AddForeignKey | AlterSpecification_AddIndex | AlterSpecification_AlterColumn
  | AlterSpecification_DropColumn | AlterSpecification_Modify | AlterSpecification_OwnerTo
  | AlterTable | Arg | Binary | Bool | Case | CaseStatement | Cast | Copy | Count
  | CreateAlgorithm_Merge | CreateAlgorithm_TempTable | CreateAlgorithm_Undefined
  | CreateDefinition_ColumnDefinition | CreateDefinition_ConstraintDefinition | CreateFunction
  | CreateIndex | CreateIndexOption_UsingGist | CreateOption_Algorithm | CreateOption_Definer
  | CreateOption_OrReplace | CreateOption_SqlSecurityDefiner | CreateOption_SqlSecurityUser
  | CreateOption_Temporary | CreateOption_Unique | CreateTable | CreateTrigger | CreateTypeEnum
  | CreateView | DataType | DataTypeProperty_As | DataTypeProperty_AutoIncrement
  | DataTypeProperty_Charset | DataTypeProperty_Check | DataTypeProperty_Comment
  | DataTypeProperty_Default | DataTypeProperty_GeneratedAlways | DataTypeProperty_NotNull
  | DataTypeProperty_Null | DataTypeProperty_Persistent | DataTypeProperty_PrimaryKey
  | DataTypeProperty_Signed | DataTypeProperty_Stored | DataTypeProperty_Unique
  | DataTypeProperty_UniqueKey | DataTypeProperty_Unsigned | DataTypeProperty_Virtual
  | DataTypeProperty_Zerofill | Delete | DeleteFlag_Ignore | DeleteFlag_LowPriority
  | DeleteFlag_Quick | DropDatabase | DropEvent | DropFunction | DropIndex | DropProcedure
  | DropServer | DropTable | DropTrigger | DropView | Exists | Extract | Float | ForeignKeyOn
  | ForeignKeyOnAction_Cascade | ForeignKeyOnAction_Restrict | ForeignKeyOnAction_SetDefault
  | ForeignKeyOnAction_SetNull | ForeignKeyOnType_Delete | ForeignKeyOnType_Update | Function
  | FunctionCharacteristic_Comment | FunctionCharacteristic_ContainsSql
  | FunctionCharacteristic_Deterministic | FunctionCharacteristic_LanguagePlpgsql
  | FunctionCharacteristic_LanguageSql | FunctionCharacteristic_ModifiesSqlData
  | FunctionCharacteristic_NoSql | FunctionCharacteristic_NotDeterministic
  | FunctionCharacteristic_ReadsSqlData | FunctionCharacteristic_SqlSecurityDefiner
  | FunctionCharacteristic_SqlSecurityUser | FunctionParamDirection_In
  | FunctionParamDirection_InOut | FunctionParamDirection_Out | Function_Abs | Function_Acos
  | Function_AddDate | Function_AddMonths | Function_AddTime | Function_Ascii | Function_Asin
  | Function_Atan | Function_Atan2 | Function_Bin | Function_BitLength | Function_Ceil
  | Function_CharacterLength | Function_Chr | Function_Concat | Function_ConcatWs | Function_Conv
  | Function_ConvertTz | Function_Cos | Function_Cot | Function_Crc32 | Function_Crc32c
  | Function_CurDate | Function_CurTime | Function_CurrentTimestamp | Function_Date
  | Function_DateDiff | Function_DateFormat | Function_DateSub | Function_Datetime
  | Function_DayName | Function_DayOfMonth | Function_DayOfWeek | Function_DayOfYear
  | Function_Degrees | Function_Elt | Function_Exists | Function_Exp | Function_ExportSet
  | Function_ExtractValue | Function_Field | Function_FindInSet | Function_Floor | Function_Format
  | Function_FromBase64 | Function_FromDays | Function_FromUnixTime | Function_Greatest
  | Function_Hex | Function_Hour | Function_If | Function_IfNull | Function_InStr | Function_Insert
  | Function_JsonArray | Function_JsonArrayAgg | Function_JsonArrayAppend
  | Function_JsonArrayInsert | Function_JsonArrayIntersect | Function_JsonCompact
  | Function_JsonContains | Function_JsonContainsPath | Function_JsonDepth | Function_JsonDetailed
  | Function_JsonEquals | Function_JsonExists | Function_JsonExtract | Function_JsonInsert
  | Function_JsonKeys | Function_JsonLength | Function_JsonLoose | Function_JsonMerge
  | Function_JsonMergePath | Function_JsonMergePerserve | Function_JsonNormalize
  | Function_JsonObject | Function_JsonObjectAgg | Function_JsonObjectFilterKeys
  | Function_JsonObjectToArray | Function_JsonOverlaps | Function_JsonPretty | Function_JsonQuery
  | Function_JsonQuote | Function_JsonRemove | Function_JsonReplace | Function_JsonSchemaValid
  | Function_JsonSearch | Function_JsonSet | Function_JsonTable | Function_JsonType
  | Function_JsonUnquote | Function_JsonValid | Function_JsonValue | Function_LCase | Function_LPad
  | Function_LTrim | Function_Lag | Function_LastDay | Function_Lead | Function_Least
  | Function_Left | Function_Length | Function_LengthB | Function_Ln | Function_LoadFile
  | Function_Locate | Function_Log | Function_Log10 | Function_Log2 | Function_Lower
  | Function_MakeDate | Function_MakeSet | Function_MakeTime | Function_Max | Function_MicroSecond
  | Function_Mid | Function_Min | Function_Minute | Function_Month | Function_MonthName
  | Function_NVL2 | Function_NaturalSortkey | Function_Now | Function_NullIf | Function_Oct
  | Function_OctetLength | Function_Ord | Function_Other | Function_PeriodAdd | Function_PeriodDiff
  | Function_Pi | Function_Position | Function_Pow | Function_Quarter | Function_Quote
  | Function_RPad | Function_RTrim | Function_Radians | Function_Rand | Function_Repeat
  | Function_Replace | Function_Reverse | Function_Right | Function_Round | Function_SFormat
  | Function_SecToTime | Function_Second | Function_Sign | Function_Sin | Function_SoundEx
  | Function_Space | Function_Sqrt | Function_StartsWith | Function_StrCmp | Function_StrToDate
  | Function_Strftime | Function_SubStr | Function_SubStringIndex | Function_SubTime | Function_Sum
  | Function_SysDate | Function_Tan | Function_Time | Function_TimeDiff | Function_TimeFormat
  | Function_TimeToSec | Function_Timestamp | Function_ToBase64 | Function_ToChar | Function_ToDays
  | Function_ToSeconds | Function_Truncate | Function_UCase | Function_UnHex
  | Function_UncompressedLength | Function_UnixTimestamp | Function_Unknown | Function_UpdateXml
  | Function_Upper | Function_UtcDate | Function_UtcTime | Function_UtcTimeStamp | Function_Value
  | Function_Week | Function_WeekOfYear | Function_Weekday | Function_Year | Function_YearWeek
  | GroupConcat | Identifier | IdentifierPart_Star | If | IfCondition | In | IndexCol | IndexHint
  | IndexHintFor_GroupBy | IndexHintFor_Join | IndexHintFor_OrderBy | IndexHintType_Index
  | IndexHintType_Key | IndexHintUse_Force | IndexHintUse_Ignore | IndexHintUse_Use
  | IndexOption_Comment | IndexOption_IndexTypeBTree | IndexOption_IndexTypeHash
  | IndexOption_IndexTypeRTree | IndexType_FullText | IndexType_Index | IndexType_Primary
  | InsertReplace | InsertReplaceFlag_Delayed | InsertReplaceFlag_HighPriority
  | InsertReplaceFlag_Ignore | InsertReplaceFlag_LowPriority | InsertReplaceOnDuplicateKeyUpdate
  | InsertReplaceSet | InsertReplaceSetPair | InsertReplaceType_Insert | InsertReplaceType_Replace
  | Integer | Interval | Invalid | Is | Is_False | Is_NotFalse | Is_NotNull | Is_NotTrue
  | Is_NotUnknown | Is_Null | Is_True | Is_Unknown | JoinSpecification_On | JoinSpecification_Using
  | JoinType_Cross | JoinType_Inner | JoinType_Left | JoinType_Natural | JoinType_NaturalInner
  | JoinType_NaturalLeft | JoinType_NaturalRight | JoinType_Normal | JoinType_Right
  | JoinType_Straight | ListHack | LockStrength_KeyShare | LockStrength_NoKeyUpdate
  | LockStrength_Share | LockStrength_Update | LockWait_Default | LockWait_NoWait
  | LockWait_SkipLocket | Locking | Null | OnConflict | OnConflictAction_DoNothing
  | OnConflictAction_DoUpdateSet | OnConflictTarget_Columns | OnConflictTarget_None
  | OnConflictTarget_OnConstraint | OrderFlag_Asc | OrderFlag_Desc | OrderFlag_None | QualifiedName
  | RenameTable | Return | Select | SelectExpr | SelectFlag_All | SelectFlag_Distinct
  | SelectFlag_DistinctRow | SelectFlag_HighPriority | SelectFlag_SqlBigResult
  | SelectFlag_SqlBufferResult | SelectFlag_SqlCalcFoundRows | SelectFlag_SqlNoCache
  | SelectFlag_SqlSmallResult | SelectFlag_StraightJoin | Set | Signal
  | SignalConditionInformationName_CatalogName | SignalConditionInformationName_ClassOrigin
  | SignalConditionInformationName_ColumnName | SignalConditionInformationName_ConstraintCatalog
  | SignalConditionInformationName_ConstraintName | SignalConditionInformationName_ConstraintSchema
  | SignalConditionInformationName_CursorName | SignalConditionInformationName_MessageText
  | SignalConditionInformationName_MysqlErrno | SignalConditionInformationName_SchemaName
  | SignalConditionInformationName_SubclassOrigin | SignalConditionInformationName_TableName
  | Statement_Begin | Statement_Block | Statement_Commit | Statement_Do | Statement_End
  | Statement_Invalid | Statement_StartTransaction | Statement_Stdin | Subquery
  | TableOption_CharSet | TableOption_Collate | TableOption_Comment | TableOption_DefaultCharSet
  | TableOption_DefaultCollate | TableOption_Engine | TableOption_RowFormat | TableOption_Strict
  | TableReference_Join | TableReference_Query | TableReference_Table | TableToTable | TimeUnit_Day
  | TimeUnit_DayHour | TimeUnit_DayMicrosecond | TimeUnit_DayMinute | TimeUnit_DaySecond
  | TimeUnit_Hour | TimeUnit_HourMicrosecond | TimeUnit_HourMinute | TimeUnit_HourSecond
  | TimeUnit_Microsecond | TimeUnit_Minute | TimeUnit_MinuteMicrosecond | TimeUnit_MinuteSecond
  | TimeUnit_Month | TimeUnit_Quarter | TimeUnit_Second | TimeUnit_SecondMicrosecond
  | TimeUnit_Week | TimeUnit_Year | TimeUnit_YearMonth | Timestamp | TimestampAdd | TimestampDiff
  | TriggerEvent_Delete | TriggerEvent_Insert | TriggerEvent_Update | TriggerTime_After
  | TriggerTime_Before | TruncateTable | Tuple | Type_BigInt | Type_Binary | Type_Bit | Type_Blob
  | Type_Boolean | Type_Bytea | Type_Char | Type_Date | Type_DateTime | Type_Double | Type_Enum
  | Type_Float | Type_Float8 | Type_Inet4 | Type_Inet6 | Type_Int | Type_Integer | Type_Json
  | Type_LongBlob | Type_LongText | Type_MediumBlob | Type_MediumText | Type_Named | Type_Numeric
  | Type_Set | Type_SmallInt | Type_Text | Type_Time | Type_Timestamp | Type_Timestamptz
  | Type_TinyBlob | Type_TinyInt | Type_TinyText | Type_VarBinary | Type_VarChar | Unary | Union
  | UnionType_All | UnionType_Default | UnionType_Distinct | UnionWith | Update | UpdateFlag_Ignore
  | UpdateFlag_LowPriority | Variable | Variable_Other | Variable_TimeZone | When | WhenStatement
  | WindowFunction | WindowSpec | WithBlock | WithQuery
  deriving DecidableEq, Repr
end SqlParse
