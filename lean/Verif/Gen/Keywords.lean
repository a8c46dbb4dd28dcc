import Verif.Text

/-! Generated by tools/gen_keywords.py from /repo/src/keywords.rs; do not edit. -/

namespace SqlParse

/-- keywords.rs:20-25 `enum Keyword`: the variant is represented by its position in the enum
(0 = NOT_A_KEYWORD, 1 = QUOTED_IDENTIFIER, then the words of keywords.rs:78-955 in order). -/
structure Keyword where
  idx : Nat
  deriving DecidableEq, Repr

namespace Keyword
/-- keywords.rs:22 -/ def NOT_A_KEYWORD : Keyword := ⟨0⟩
/-- keywords.rs:23 -/ def QUOTED_IDENTIFIER : Keyword := ⟨1⟩
/-- keywords.rs:79 -/ def «_LIST_» : Keyword := ⟨2⟩
/-- keywords.rs:80 -/ def ABS : Keyword := ⟨3⟩
/-- keywords.rs:81 -/ def ACCESSIBLE : Keyword := ⟨4⟩
/-- keywords.rs:82 -/ def ACCOUNT : Keyword := ⟨5⟩
/-- keywords.rs:83 -/ def ACOS : Keyword := ⟨6⟩
/-- keywords.rs:84 -/ def ACTION : Keyword := ⟨7⟩
/-- keywords.rs:85 -/ def ADD : Keyword := ⟨8⟩
/-- keywords.rs:86 -/ def ADD_MONTHS : Keyword := ⟨9⟩
/-- keywords.rs:87 -/ def ADDDATE : Keyword := ⟨10⟩
/-- keywords.rs:88 -/ def ADDTIME : Keyword := ⟨11⟩
/-- keywords.rs:89 -/ def ADMIN : Keyword := ⟨12⟩
/-- keywords.rs:90 -/ def AFTER : Keyword := ⟨13⟩
/-- keywords.rs:91 -/ def AGAINST : Keyword := ⟨14⟩
/-- keywords.rs:92 -/ def AGGREGATE : Keyword := ⟨15⟩
/-- keywords.rs:93 -/ def ALGORITHM : Keyword := ⟨16⟩
/-- keywords.rs:94 -/ def ALL : Keyword := ⟨17⟩
/-- keywords.rs:95 -/ def ALTER : Keyword := ⟨18⟩
/-- keywords.rs:96 -/ def ALWAYS : Keyword := ⟨19⟩
/-- keywords.rs:97 -/ def ANALYZE : Keyword := ⟨20⟩
/-- keywords.rs:98 -/ def AND : Keyword := ⟨21⟩
/-- keywords.rs:99 -/ def ANY : Keyword := ⟨22⟩
/-- keywords.rs:100 -/ def AS : Keyword := ⟨23⟩
/-- keywords.rs:101 -/ def ASC : Keyword := ⟨24⟩
/-- keywords.rs:102 -/ def ASCII : Keyword := ⟨25⟩
/-- keywords.rs:103 -/ def ASENSITIVE : Keyword := ⟨26⟩
/-- keywords.rs:104 -/ def ASIN : Keyword := ⟨27⟩
/-- keywords.rs:105 -/ def AT : Keyword := ⟨28⟩
/-- keywords.rs:106 -/ def ATAN : Keyword := ⟨29⟩
/-- keywords.rs:107 -/ def ATAN2 : Keyword := ⟨30⟩
/-- keywords.rs:108 -/ def ATOMIC : Keyword := ⟨31⟩
/-- keywords.rs:109 -/ def AUTHORS : Keyword := ⟨32⟩
/-- keywords.rs:110 -/ def AUTO : Keyword := ⟨33⟩
/-- keywords.rs:111 -/ def AUTO_INCREMENT : Keyword := ⟨34⟩
/-- keywords.rs:112 -/ def AUTOEXTEND_SIZE : Keyword := ⟨35⟩
/-- keywords.rs:113 -/ def AVG : Keyword := ⟨36⟩
/-- keywords.rs:114 -/ def AVG_ROW_LENGTH : Keyword := ⟨37⟩
/-- keywords.rs:115 -/ def BACKUP : Keyword := ⟨38⟩
/-- keywords.rs:116 -/ def BEFORE : Keyword := ⟨39⟩
/-- keywords.rs:117 -/ def BEGIN : Keyword := ⟨40⟩
/-- keywords.rs:118 -/ def BETWEEN : Keyword := ⟨41⟩
/-- keywords.rs:119 -/ def BIGINT : Keyword := ⟨42⟩
/-- keywords.rs:120 -/ def BIN : Keyword := ⟨43⟩
/-- keywords.rs:121 -/ def BINARY : Keyword := ⟨44⟩
/-- keywords.rs:122 -/ def BINLOG : Keyword := ⟨45⟩
/-- keywords.rs:123 -/ def BIT : Keyword := ⟨46⟩
/-- keywords.rs:124 -/ def BIT_LENGTH : Keyword := ⟨47⟩
/-- keywords.rs:125 -/ def BLOB : Keyword := ⟨48⟩
/-- keywords.rs:126 -/ def BLOCK : Keyword := ⟨49⟩
/-- keywords.rs:127 -/ def BODY : Keyword := ⟨50⟩
/-- keywords.rs:128 -/ def BOOL : Keyword := ⟨51⟩
/-- keywords.rs:129 -/ def BOOLEAN : Keyword := ⟨52⟩
/-- keywords.rs:130 -/ def BOTH : Keyword := ⟨53⟩
/-- keywords.rs:131 -/ def BPCHAR_PATTERN_OPS : Keyword := ⟨54⟩
/-- keywords.rs:132 -/ def BTREE : Keyword := ⟨55⟩
/-- keywords.rs:133 -/ def BY : Keyword := ⟨56⟩
/-- keywords.rs:134 -/ def BYTE : Keyword := ⟨57⟩
/-- keywords.rs:135 -/ def BYTEA : Keyword := ⟨58⟩
/-- keywords.rs:136 -/ def CACHE : Keyword := ⟨59⟩
/-- keywords.rs:137 -/ def CALL : Keyword := ⟨60⟩
/-- keywords.rs:138 -/ def CASCADE : Keyword := ⟨61⟩
/-- keywords.rs:139 -/ def CASCADED : Keyword := ⟨62⟩
/-- keywords.rs:140 -/ def CASE : Keyword := ⟨63⟩
/-- keywords.rs:141 -/ def CAST : Keyword := ⟨64⟩
/-- keywords.rs:142 -/ def CATALOG_NAME : Keyword := ⟨65⟩
/-- keywords.rs:143 -/ def CEIL : Keyword := ⟨66⟩
/-- keywords.rs:144 -/ def CEILING : Keyword := ⟨67⟩
/-- keywords.rs:145 -/ def CHAIN : Keyword := ⟨68⟩
/-- keywords.rs:146 -/ def CHANGE : Keyword := ⟨69⟩
/-- keywords.rs:147 -/ def CHANGED : Keyword := ⟨70⟩
/-- keywords.rs:148 -/ def CHAR : Keyword := ⟨71⟩
/-- keywords.rs:149 -/ def CHAR_LENGTH : Keyword := ⟨72⟩
/-- keywords.rs:150 -/ def CHARACTER : Keyword := ⟨73⟩
/-- keywords.rs:151 -/ def CHARACTER_LENGTH : Keyword := ⟨74⟩
/-- keywords.rs:152 -/ def CHARSET : Keyword := ⟨75⟩
/-- keywords.rs:153 -/ def CHECK : Keyword := ⟨76⟩
/-- keywords.rs:154 -/ def CHECKPOINT : Keyword := ⟨77⟩
/-- keywords.rs:155 -/ def CHECKSUM : Keyword := ⟨78⟩
/-- keywords.rs:156 -/ def CHR : Keyword := ⟨79⟩
/-- keywords.rs:157 -/ def CIPHER : Keyword := ⟨80⟩
/-- keywords.rs:158 -/ def CLASS_ORIGIN : Keyword := ⟨81⟩
/-- keywords.rs:159 -/ def CLIENT : Keyword := ⟨82⟩
/-- keywords.rs:160 -/ def CLOB : Keyword := ⟨83⟩
/-- keywords.rs:161 -/ def CLOSE : Keyword := ⟨84⟩
/-- keywords.rs:162 -/ def COALESCE : Keyword := ⟨85⟩
/-- keywords.rs:163 -/ def CODE : Keyword := ⟨86⟩
/-- keywords.rs:164 -/ def COLLATE : Keyword := ⟨87⟩
/-- keywords.rs:165 -/ def COLLATION : Keyword := ⟨88⟩
/-- keywords.rs:166 -/ def COLUMN : Keyword := ⟨89⟩
/-- keywords.rs:167 -/ def COLUMN_ADD : Keyword := ⟨90⟩
/-- keywords.rs:168 -/ def COLUMN_CHECK : Keyword := ⟨91⟩
/-- keywords.rs:169 -/ def COLUMN_CREATE : Keyword := ⟨92⟩
/-- keywords.rs:170 -/ def COLUMN_DELETE : Keyword := ⟨93⟩
/-- keywords.rs:171 -/ def COLUMN_GET : Keyword := ⟨94⟩
/-- keywords.rs:172 -/ def COLUMN_NAME : Keyword := ⟨95⟩
/-- keywords.rs:173 -/ def COLUMNS : Keyword := ⟨96⟩
/-- keywords.rs:174 -/ def COMMENT : Keyword := ⟨97⟩
/-- keywords.rs:175 -/ def COMMIT : Keyword := ⟨98⟩
/-- keywords.rs:176 -/ def COMMITTED : Keyword := ⟨99⟩
/-- keywords.rs:177 -/ def COMPACT : Keyword := ⟨100⟩
/-- keywords.rs:178 -/ def COMPLETION : Keyword := ⟨101⟩
/-- keywords.rs:179 -/ def COMPRESSED : Keyword := ⟨102⟩
/-- keywords.rs:180 -/ def CONCAT : Keyword := ⟨103⟩
/-- keywords.rs:181 -/ def CONCAT_WS : Keyword := ⟨104⟩
/-- keywords.rs:182 -/ def CONCURRENT : Keyword := ⟨105⟩
/-- keywords.rs:183 -/ def CONDITION : Keyword := ⟨106⟩
/-- keywords.rs:184 -/ def CONFLICT : Keyword := ⟨107⟩
/-- keywords.rs:185 -/ def CONNECTION : Keyword := ⟨108⟩
/-- keywords.rs:186 -/ def CONSISTENT : Keyword := ⟨109⟩
/-- keywords.rs:187 -/ def CONSTRAINT : Keyword := ⟨110⟩
/-- keywords.rs:188 -/ def CONSTRAINT_CATALOG : Keyword := ⟨111⟩
/-- keywords.rs:189 -/ def CONSTRAINT_NAME : Keyword := ⟨112⟩
/-- keywords.rs:190 -/ def CONSTRAINT_SCHEMA : Keyword := ⟨113⟩
/-- keywords.rs:191 -/ def CONTAINS : Keyword := ⟨114⟩
/-- keywords.rs:192 -/ def CONTEXT : Keyword := ⟨115⟩
/-- keywords.rs:193 -/ def CONTINUE : Keyword := ⟨116⟩
/-- keywords.rs:194 -/ def CONTRIBUTORS : Keyword := ⟨117⟩
/-- keywords.rs:195 -/ def CONV : Keyword := ⟨118⟩
/-- keywords.rs:196 -/ def CONVERT : Keyword := ⟨119⟩
/-- keywords.rs:197 -/ def CONVERT_TZ : Keyword := ⟨120⟩
/-- keywords.rs:198 -/ def COPY : Keyword := ⟨121⟩
/-- keywords.rs:199 -/ def COS : Keyword := ⟨122⟩
/-- keywords.rs:200 -/ def COT : Keyword := ⟨123⟩
/-- keywords.rs:201 -/ def COUNT : Keyword := ⟨124⟩
/-- keywords.rs:202 -/ def CPU : Keyword := ⟨125⟩
/-- keywords.rs:203 -/ def CRC32 : Keyword := ⟨126⟩
/-- keywords.rs:204 -/ def CRC32C : Keyword := ⟨127⟩
/-- keywords.rs:205 -/ def CREATE : Keyword := ⟨128⟩
/-- keywords.rs:206 -/ def CROSS : Keyword := ⟨129⟩
/-- keywords.rs:207 -/ def CUBE : Keyword := ⟨130⟩
/-- keywords.rs:208 -/ def CURDATE : Keyword := ⟨131⟩
/-- keywords.rs:209 -/ def CURRENT : Keyword := ⟨132⟩
/-- keywords.rs:210 -/ def CURRENT_DATE : Keyword := ⟨133⟩
/-- keywords.rs:211 -/ def CURRENT_POS : Keyword := ⟨134⟩
/-- keywords.rs:212 -/ def CURRENT_ROLE : Keyword := ⟨135⟩
/-- keywords.rs:213 -/ def CURRENT_TIME : Keyword := ⟨136⟩
/-- keywords.rs:214 -/ def CURRENT_TIMESTAMP : Keyword := ⟨137⟩
/-- keywords.rs:215 -/ def CURRENT_USER : Keyword := ⟨138⟩
/-- keywords.rs:216 -/ def CURSOR : Keyword := ⟨139⟩
/-- keywords.rs:217 -/ def CURSOR_NAME : Keyword := ⟨140⟩
/-- keywords.rs:218 -/ def CURTIME : Keyword := ⟨141⟩
/-- keywords.rs:219 -/ def CYCLE : Keyword := ⟨142⟩
/-- keywords.rs:220 -/ def DATA : Keyword := ⟨143⟩
/-- keywords.rs:221 -/ def DATABASE : Keyword := ⟨144⟩
/-- keywords.rs:222 -/ def DATABASES : Keyword := ⟨145⟩
/-- keywords.rs:223 -/ def DATAFILE : Keyword := ⟨146⟩
/-- keywords.rs:224 -/ def DATE : Keyword := ⟨147⟩
/-- keywords.rs:225 -/ def DATE_ADD : Keyword := ⟨148⟩
/-- keywords.rs:226 -/ def DATE_FORMAT : Keyword := ⟨149⟩
/-- keywords.rs:227 -/ def DATE_SUB : Keyword := ⟨150⟩
/-- keywords.rs:228 -/ def DATEDIFF : Keyword := ⟨151⟩
/-- keywords.rs:229 -/ def DATETIME : Keyword := ⟨152⟩
/-- keywords.rs:230 -/ def DAY : Keyword := ⟨153⟩
/-- keywords.rs:231 -/ def DAY_HOUR : Keyword := ⟨154⟩
/-- keywords.rs:232 -/ def DAY_MICROSECOND : Keyword := ⟨155⟩
/-- keywords.rs:233 -/ def DAY_MINUTE : Keyword := ⟨156⟩
/-- keywords.rs:234 -/ def DAY_SECOND : Keyword := ⟨157⟩
/-- keywords.rs:235 -/ def DAYNAME : Keyword := ⟨158⟩
/-- keywords.rs:236 -/ def DAYOFMONTH : Keyword := ⟨159⟩
/-- keywords.rs:237 -/ def DAYOFWEEK : Keyword := ⟨160⟩
/-- keywords.rs:238 -/ def DAYOFYEAR : Keyword := ⟨161⟩
/-- keywords.rs:239 -/ def DEALLOCATE : Keyword := ⟨162⟩
/-- keywords.rs:240 -/ def DEC : Keyword := ⟨163⟩
/-- keywords.rs:241 -/ def DECIMAL : Keyword := ⟨164⟩
/-- keywords.rs:242 -/ def DECLARE : Keyword := ⟨165⟩
/-- keywords.rs:243 -/ def DEFAULT : Keyword := ⟨166⟩
/-- keywords.rs:244 -/ def DEFINER : Keyword := ⟨167⟩
/-- keywords.rs:245 -/ def DEGREES : Keyword := ⟨168⟩
/-- keywords.rs:246 -/ def DELAY_KEY_WRITE : Keyword := ⟨169⟩
/-- keywords.rs:247 -/ def DELAYED : Keyword := ⟨170⟩
/-- keywords.rs:248 -/ def DELETE : Keyword := ⟨171⟩
/-- keywords.rs:249 -/ def DELETE_DOMAIN_ID : Keyword := ⟨172⟩
/-- keywords.rs:250 -/ def DELIMITER : Keyword := ⟨173⟩
/-- keywords.rs:251 -/ def DES_KEY_FILE : Keyword := ⟨174⟩
/-- keywords.rs:252 -/ def DESC : Keyword := ⟨175⟩
/-- keywords.rs:253 -/ def DESCRIBE : Keyword := ⟨176⟩
/-- keywords.rs:254 -/ def DETERMINISTIC : Keyword := ⟨177⟩
/-- keywords.rs:255 -/ def DIAGNOSTICS : Keyword := ⟨178⟩
/-- keywords.rs:256 -/ def DIRECTORY : Keyword := ⟨179⟩
/-- keywords.rs:257 -/ def DISABLE : Keyword := ⟨180⟩
/-- keywords.rs:258 -/ def DISCARD : Keyword := ⟨181⟩
/-- keywords.rs:259 -/ def DISK : Keyword := ⟨182⟩
/-- keywords.rs:260 -/ def DISTINCT : Keyword := ⟨183⟩
/-- keywords.rs:261 -/ def DISTINCTROW : Keyword := ⟨184⟩
/-- keywords.rs:262 -/ def DIV : Keyword := ⟨185⟩
/-- keywords.rs:263 -/ def DO : Keyword := ⟨186⟩
/-- keywords.rs:264 -/ def DO_DOMAIN_IDS : Keyword := ⟨187⟩
/-- keywords.rs:265 -/ def DOUBLE : Keyword := ⟨188⟩
/-- keywords.rs:266 -/ def DROP : Keyword := ⟨189⟩
/-- keywords.rs:267 -/ def DUAL : Keyword := ⟨190⟩
/-- keywords.rs:268 -/ def DUMPFILE : Keyword := ⟨191⟩
/-- keywords.rs:269 -/ def DUPLICATE : Keyword := ⟨192⟩
/-- keywords.rs:270 -/ def DYNAMIC : Keyword := ⟨193⟩
/-- keywords.rs:271 -/ def EACH : Keyword := ⟨194⟩
/-- keywords.rs:272 -/ def ELSE : Keyword := ⟨195⟩
/-- keywords.rs:273 -/ def ELSEIF : Keyword := ⟨196⟩
/-- keywords.rs:274 -/ def ELSIF : Keyword := ⟨197⟩
/-- keywords.rs:275 -/ def ELT : Keyword := ⟨198⟩
/-- keywords.rs:276 -/ def EMPTY : Keyword := ⟨199⟩
/-- keywords.rs:277 -/ def ENABLE : Keyword := ⟨200⟩
/-- keywords.rs:278 -/ def ENCLOSED : Keyword := ⟨201⟩
/-- keywords.rs:279 -/ def END : Keyword := ⟨202⟩
/-- keywords.rs:280 -/ def ENDS : Keyword := ⟨203⟩
/-- keywords.rs:281 -/ def ENGINE : Keyword := ⟨204⟩
/-- keywords.rs:282 -/ def ENGINES : Keyword := ⟨205⟩
/-- keywords.rs:283 -/ def ENUM : Keyword := ⟨206⟩
/-- keywords.rs:284 -/ def ERROR : Keyword := ⟨207⟩
/-- keywords.rs:285 -/ def ERRORS : Keyword := ⟨208⟩
/-- keywords.rs:286 -/ def ESCAPE : Keyword := ⟨209⟩
/-- keywords.rs:287 -/ def ESCAPED : Keyword := ⟨210⟩
/-- keywords.rs:288 -/ def EVENT : Keyword := ⟨211⟩
/-- keywords.rs:289 -/ def EVENTS : Keyword := ⟨212⟩
/-- keywords.rs:290 -/ def EVERY : Keyword := ⟨213⟩
/-- keywords.rs:291 -/ def EXAMINED : Keyword := ⟨214⟩
/-- keywords.rs:292 -/ def EXCEPT : Keyword := ⟨215⟩
/-- keywords.rs:293 -/ def EXCEPTION : Keyword := ⟨216⟩
/-- keywords.rs:294 -/ def EXCHANGE : Keyword := ⟨217⟩
/-- keywords.rs:295 -/ def EXCLUDE : Keyword := ⟨218⟩
/-- keywords.rs:296 -/ def EXECUTE : Keyword := ⟨219⟩
/-- keywords.rs:297 -/ def EXISTS : Keyword := ⟨220⟩
/-- keywords.rs:298 -/ def EXIT : Keyword := ⟨221⟩
/-- keywords.rs:299 -/ def EXP : Keyword := ⟨222⟩
/-- keywords.rs:300 -/ def EXPANSION : Keyword := ⟨223⟩
/-- keywords.rs:301 -/ def EXPIRE : Keyword := ⟨224⟩
/-- keywords.rs:302 -/ def EXPLAIN : Keyword := ⟨225⟩
/-- keywords.rs:303 -/ def EXPORT : Keyword := ⟨226⟩
/-- keywords.rs:304 -/ def EXPORT_SET : Keyword := ⟨227⟩
/-- keywords.rs:305 -/ def EXTENDED : Keyword := ⟨228⟩
/-- keywords.rs:306 -/ def EXTENT_SIZE : Keyword := ⟨229⟩
/-- keywords.rs:307 -/ def EXTRACT : Keyword := ⟨230⟩
/-- keywords.rs:308 -/ def EXTRACTVALUE : Keyword := ⟨231⟩
/-- keywords.rs:309 -/ def FALSE : Keyword := ⟨232⟩
/-- keywords.rs:310 -/ def FAST : Keyword := ⟨233⟩
/-- keywords.rs:311 -/ def FAULTS : Keyword := ⟨234⟩
/-- keywords.rs:312 -/ def FEDERATED : Keyword := ⟨235⟩
/-- keywords.rs:313 -/ def FETCH : Keyword := ⟨236⟩
/-- keywords.rs:314 -/ def FIELD : Keyword := ⟨237⟩
/-- keywords.rs:315 -/ def FIELDS : Keyword := ⟨238⟩
/-- keywords.rs:316 -/ def FILE : Keyword := ⟨239⟩
/-- keywords.rs:317 -/ def FIND_IN_SET : Keyword := ⟨240⟩
/-- keywords.rs:318 -/ def FIRST : Keyword := ⟨241⟩
/-- keywords.rs:319 -/ def FIXED : Keyword := ⟨242⟩
/-- keywords.rs:320 -/ def FLOAT : Keyword := ⟨243⟩
/-- keywords.rs:321 -/ def FLOAT4 : Keyword := ⟨244⟩
/-- keywords.rs:322 -/ def FLOAT8 : Keyword := ⟨245⟩
/-- keywords.rs:323 -/ def FLOOR : Keyword := ⟨246⟩
/-- keywords.rs:324 -/ def FLUSH : Keyword := ⟨247⟩
/-- keywords.rs:325 -/ def FOLLOWING : Keyword := ⟨248⟩
/-- keywords.rs:326 -/ def FOLLOWS : Keyword := ⟨249⟩
/-- keywords.rs:327 -/ def FOR : Keyword := ⟨250⟩
/-- keywords.rs:328 -/ def FORCE : Keyword := ⟨251⟩
/-- keywords.rs:329 -/ def FOREIGN : Keyword := ⟨252⟩
/-- keywords.rs:330 -/ def FORMAT : Keyword := ⟨253⟩
/-- keywords.rs:331 -/ def FOUND : Keyword := ⟨254⟩
/-- keywords.rs:332 -/ def FROM : Keyword := ⟨255⟩
/-- keywords.rs:333 -/ def FROM_BASE64 : Keyword := ⟨256⟩
/-- keywords.rs:334 -/ def FROM_DAYS : Keyword := ⟨257⟩
/-- keywords.rs:335 -/ def FROM_UNIXTIME : Keyword := ⟨258⟩
/-- keywords.rs:336 -/ def FULL : Keyword := ⟨259⟩
/-- keywords.rs:337 -/ def FULLTEXT : Keyword := ⟨260⟩
/-- keywords.rs:338 -/ def FUNCTION : Keyword := ⟨261⟩
/-- keywords.rs:339 -/ def GENERAL : Keyword := ⟨262⟩
/-- keywords.rs:340 -/ def GENERATED : Keyword := ⟨263⟩
/-- keywords.rs:341 -/ def GET : Keyword := ⟨264⟩
/-- keywords.rs:342 -/ def GET_FORMAT : Keyword := ⟨265⟩
/-- keywords.rs:343 -/ def GIST : Keyword := ⟨266⟩
/-- keywords.rs:344 -/ def GLOBAL : Keyword := ⟨267⟩
/-- keywords.rs:345 -/ def GOTO : Keyword := ⟨268⟩
/-- keywords.rs:346 -/ def GRANT : Keyword := ⟨269⟩
/-- keywords.rs:347 -/ def GRANTS : Keyword := ⟨270⟩
/-- keywords.rs:348 -/ def GREATEST : Keyword := ⟨271⟩
/-- keywords.rs:349 -/ def GROUP : Keyword := ⟨272⟩
/-- keywords.rs:350 -/ def GROUP_CONCAT : Keyword := ⟨273⟩
/-- keywords.rs:351 -/ def HANDLER : Keyword := ⟨274⟩
/-- keywords.rs:352 -/ def HARD : Keyword := ⟨275⟩
/-- keywords.rs:353 -/ def HASH : Keyword := ⟨276⟩
/-- keywords.rs:354 -/ def HAVING : Keyword := ⟨277⟩
/-- keywords.rs:355 -/ def HELP : Keyword := ⟨278⟩
/-- keywords.rs:356 -/ def HEX : Keyword := ⟨279⟩
/-- keywords.rs:357 -/ def HIGH_PRIORITY : Keyword := ⟨280⟩
/-- keywords.rs:358 -/ def HISTORY : Keyword := ⟨281⟩
/-- keywords.rs:359 -/ def HOST : Keyword := ⟨282⟩
/-- keywords.rs:360 -/ def HOSTS : Keyword := ⟨283⟩
/-- keywords.rs:361 -/ def HOUR : Keyword := ⟨284⟩
/-- keywords.rs:362 -/ def HOUR_MICROSECOND : Keyword := ⟨285⟩
/-- keywords.rs:363 -/ def HOUR_MINUTE : Keyword := ⟨286⟩
/-- keywords.rs:364 -/ def HOUR_SECOND : Keyword := ⟨287⟩
/-- keywords.rs:365 -/ def ID : Keyword := ⟨288⟩
/-- keywords.rs:366 -/ def IDENTIFIED : Keyword := ⟨289⟩
/-- keywords.rs:367 -/ def IDENTITY : Keyword := ⟨290⟩
/-- keywords.rs:368 -/ def IF : Keyword := ⟨291⟩
/-- keywords.rs:369 -/ def IFNULL : Keyword := ⟨292⟩
/-- keywords.rs:370 -/ def IGNORE : Keyword := ⟨293⟩
/-- keywords.rs:371 -/ def IGNORE_DOMAIN_IDS : Keyword := ⟨294⟩
/-- keywords.rs:372 -/ def IGNORE_SERVER_IDS : Keyword := ⟨295⟩
/-- keywords.rs:373 -/ def IGNORED : Keyword := ⟨296⟩
/-- keywords.rs:374 -/ def IMMEDIATE : Keyword := ⟨297⟩
/-- keywords.rs:375 -/ def IMPORT : Keyword := ⟨298⟩
/-- keywords.rs:376 -/ def IN : Keyword := ⟨299⟩
/-- keywords.rs:377 -/ def INCREMENT : Keyword := ⟨300⟩
/-- keywords.rs:378 -/ def INDEX : Keyword := ⟨301⟩
/-- keywords.rs:379 -/ def INDEXES : Keyword := ⟨302⟩
/-- keywords.rs:380 -/ def INET4 : Keyword := ⟨303⟩
/-- keywords.rs:381 -/ def INET6 : Keyword := ⟨304⟩
/-- keywords.rs:382 -/ def INFILE : Keyword := ⟨305⟩
/-- keywords.rs:383 -/ def INITIAL_SIZE : Keyword := ⟨306⟩
/-- keywords.rs:384 -/ def INNER : Keyword := ⟨307⟩
/-- keywords.rs:385 -/ def INOUT : Keyword := ⟨308⟩
/-- keywords.rs:386 -/ def INSENSITIVE : Keyword := ⟨309⟩
/-- keywords.rs:387 -/ def INSERT : Keyword := ⟨310⟩
/-- keywords.rs:388 -/ def INSERT_METHOD : Keyword := ⟨311⟩
/-- keywords.rs:389 -/ def INSTALL : Keyword := ⟨312⟩
/-- keywords.rs:390 -/ def INSTR : Keyword := ⟨313⟩
/-- keywords.rs:391 -/ def INT : Keyword := ⟨314⟩
/-- keywords.rs:392 -/ def INT1 : Keyword := ⟨315⟩
/-- keywords.rs:393 -/ def INT2 : Keyword := ⟨316⟩
/-- keywords.rs:394 -/ def INT2_OPS : Keyword := ⟨317⟩
/-- keywords.rs:395 -/ def INT3 : Keyword := ⟨318⟩
/-- keywords.rs:396 -/ def INT4 : Keyword := ⟨319⟩
/-- keywords.rs:397 -/ def INT4_OPS : Keyword := ⟨320⟩
/-- keywords.rs:398 -/ def INT8 : Keyword := ⟨321⟩
/-- keywords.rs:399 -/ def INT8_OPS : Keyword := ⟨322⟩
/-- keywords.rs:400 -/ def INTEGER : Keyword := ⟨323⟩
/-- keywords.rs:401 -/ def INTERSECT : Keyword := ⟨324⟩
/-- keywords.rs:402 -/ def INTERSECTA : Keyword := ⟨325⟩
/-- keywords.rs:403 -/ def INTERVAL : Keyword := ⟨326⟩
/-- keywords.rs:404 -/ def INTO : Keyword := ⟨327⟩
/-- keywords.rs:405 -/ def INVISIBLE : Keyword := ⟨328⟩
/-- keywords.rs:406 -/ def INVOKER : Keyword := ⟨329⟩
/-- keywords.rs:407 -/ def IO : Keyword := ⟨330⟩
/-- keywords.rs:408 -/ def IO_THREAD : Keyword := ⟨331⟩
/-- keywords.rs:409 -/ def IPC : Keyword := ⟨332⟩
/-- keywords.rs:410 -/ def IS : Keyword := ⟨333⟩
/-- keywords.rs:411 -/ def ISOLATION : Keyword := ⟨334⟩
/-- keywords.rs:412 -/ def ISOPEN : Keyword := ⟨335⟩
/-- keywords.rs:413 -/ def ISSUER : Keyword := ⟨336⟩
/-- keywords.rs:414 -/ def ITERATE : Keyword := ⟨337⟩
/-- keywords.rs:415 -/ def JOIN : Keyword := ⟨338⟩
/-- keywords.rs:416 -/ def JSON : Keyword := ⟨339⟩
/-- keywords.rs:417 -/ def JSON_ARRAY : Keyword := ⟨340⟩
/-- keywords.rs:418 -/ def JSON_ARRAY_APPEND : Keyword := ⟨341⟩
/-- keywords.rs:419 -/ def JSON_ARRAY_INSERT : Keyword := ⟨342⟩
/-- keywords.rs:420 -/ def JSON_ARRAY_INTERSECT : Keyword := ⟨343⟩
/-- keywords.rs:421 -/ def JSON_ARRAYAGG : Keyword := ⟨344⟩
/-- keywords.rs:422 -/ def JSON_COMPACT : Keyword := ⟨345⟩
/-- keywords.rs:423 -/ def JSON_CONTAINS : Keyword := ⟨346⟩
/-- keywords.rs:424 -/ def JSON_CONTAINS_PATH : Keyword := ⟨347⟩
/-- keywords.rs:425 -/ def JSON_DEPTH : Keyword := ⟨348⟩
/-- keywords.rs:426 -/ def JSON_DETAILED : Keyword := ⟨349⟩
/-- keywords.rs:427 -/ def JSON_EQUALS : Keyword := ⟨350⟩
/-- keywords.rs:428 -/ def JSON_EXISTS : Keyword := ⟨351⟩
/-- keywords.rs:429 -/ def JSON_EXTRACT : Keyword := ⟨352⟩
/-- keywords.rs:430 -/ def JSON_INSERT : Keyword := ⟨353⟩
/-- keywords.rs:431 -/ def JSON_KEYS : Keyword := ⟨354⟩
/-- keywords.rs:432 -/ def JSON_LENGTH : Keyword := ⟨355⟩
/-- keywords.rs:433 -/ def JSON_LOOSE : Keyword := ⟨356⟩
/-- keywords.rs:434 -/ def JSON_MERGE : Keyword := ⟨357⟩
/-- keywords.rs:435 -/ def JSON_MERGE_PATCH : Keyword := ⟨358⟩
/-- keywords.rs:436 -/ def JSON_MERGE_PRESERVE : Keyword := ⟨359⟩
/-- keywords.rs:437 -/ def JSON_NORMALIZE : Keyword := ⟨360⟩
/-- keywords.rs:438 -/ def JSON_OBJECT : Keyword := ⟨361⟩
/-- keywords.rs:439 -/ def JSON_OBJECT_FILTER_KEYS : Keyword := ⟨362⟩
/-- keywords.rs:440 -/ def JSON_OBJECT_TO_ARRAY : Keyword := ⟨363⟩
/-- keywords.rs:441 -/ def JSON_OBJECTAGG : Keyword := ⟨364⟩
/-- keywords.rs:442 -/ def JSON_OVERLAPS : Keyword := ⟨365⟩
/-- keywords.rs:443 -/ def JSON_PRETTY : Keyword := ⟨366⟩
/-- keywords.rs:444 -/ def JSON_QUERY : Keyword := ⟨367⟩
/-- keywords.rs:445 -/ def JSON_QUOTE : Keyword := ⟨368⟩
/-- keywords.rs:446 -/ def JSON_REMOVE : Keyword := ⟨369⟩
/-- keywords.rs:447 -/ def JSON_REPLACE : Keyword := ⟨370⟩
/-- keywords.rs:448 -/ def JSON_SCHEMA_VALID : Keyword := ⟨371⟩
/-- keywords.rs:449 -/ def JSON_SEARCH : Keyword := ⟨372⟩
/-- keywords.rs:450 -/ def JSON_SET : Keyword := ⟨373⟩
/-- keywords.rs:451 -/ def JSON_TABLE : Keyword := ⟨374⟩
/-- keywords.rs:452 -/ def JSON_TYPE : Keyword := ⟨375⟩
/-- keywords.rs:453 -/ def JSON_UNQUOTE : Keyword := ⟨376⟩
/-- keywords.rs:454 -/ def JSON_VALID : Keyword := ⟨377⟩
/-- keywords.rs:455 -/ def JSON_VALUE : Keyword := ⟨378⟩
/-- keywords.rs:456 -/ def KEY : Keyword := ⟨379⟩
/-- keywords.rs:457 -/ def KEY_BLOCK_SIZE : Keyword := ⟨380⟩
/-- keywords.rs:458 -/ def KEYS : Keyword := ⟨381⟩
/-- keywords.rs:459 -/ def KILL : Keyword := ⟨382⟩
/-- keywords.rs:460 -/ def LAG : Keyword := ⟨383⟩
/-- keywords.rs:461 -/ def LANGUAGE : Keyword := ⟨384⟩
/-- keywords.rs:462 -/ def LAST : Keyword := ⟨385⟩
/-- keywords.rs:463 -/ def LAST_DAY : Keyword := ⟨386⟩
/-- keywords.rs:464 -/ def LAST_VALUE : Keyword := ⟨387⟩
/-- keywords.rs:465 -/ def LASTVAL : Keyword := ⟨388⟩
/-- keywords.rs:466 -/ def LCASE : Keyword := ⟨389⟩
/-- keywords.rs:467 -/ def LEAD : Keyword := ⟨390⟩
/-- keywords.rs:468 -/ def LEADING : Keyword := ⟨391⟩
/-- keywords.rs:469 -/ def LEAST : Keyword := ⟨392⟩
/-- keywords.rs:470 -/ def LEAVE : Keyword := ⟨393⟩
/-- keywords.rs:471 -/ def LEAVES : Keyword := ⟨394⟩
/-- keywords.rs:472 -/ def LEFT : Keyword := ⟨395⟩
/-- keywords.rs:473 -/ def LENGTH : Keyword := ⟨396⟩
/-- keywords.rs:474 -/ def LENGTHB : Keyword := ⟨397⟩
/-- keywords.rs:475 -/ def LESS : Keyword := ⟨398⟩
/-- keywords.rs:476 -/ def LEVEL : Keyword := ⟨399⟩
/-- keywords.rs:477 -/ def LIKE : Keyword := ⟨400⟩
/-- keywords.rs:478 -/ def LIMIT : Keyword := ⟨401⟩
/-- keywords.rs:479 -/ def LINEAR : Keyword := ⟨402⟩
/-- keywords.rs:480 -/ def LINES : Keyword := ⟨403⟩
/-- keywords.rs:481 -/ def LIST : Keyword := ⟨404⟩
/-- keywords.rs:482 -/ def LN : Keyword := ⟨405⟩
/-- keywords.rs:483 -/ def LOAD : Keyword := ⟨406⟩
/-- keywords.rs:484 -/ def LOAD_FILE : Keyword := ⟨407⟩
/-- keywords.rs:485 -/ def LOCAL : Keyword := ⟨408⟩
/-- keywords.rs:486 -/ def LOCALTIME : Keyword := ⟨409⟩
/-- keywords.rs:487 -/ def LOCALTIMESTAMP : Keyword := ⟨410⟩
/-- keywords.rs:488 -/ def LOCATE : Keyword := ⟨411⟩
/-- keywords.rs:489 -/ def LOCK : Keyword := ⟨412⟩
/-- keywords.rs:490 -/ def LOCKED : Keyword := ⟨413⟩
/-- keywords.rs:491 -/ def LOCKS : Keyword := ⟨414⟩
/-- keywords.rs:492 -/ def LOG : Keyword := ⟨415⟩
/-- keywords.rs:493 -/ def LOG10 : Keyword := ⟨416⟩
/-- keywords.rs:494 -/ def LOG2 : Keyword := ⟨417⟩
/-- keywords.rs:495 -/ def LOGFILE : Keyword := ⟨418⟩
/-- keywords.rs:496 -/ def LOGS : Keyword := ⟨419⟩
/-- keywords.rs:497 -/ def LONG : Keyword := ⟨420⟩
/-- keywords.rs:498 -/ def LONGBLOB : Keyword := ⟨421⟩
/-- keywords.rs:499 -/ def LONGTEXT : Keyword := ⟨422⟩
/-- keywords.rs:500 -/ def LOOP : Keyword := ⟨423⟩
/-- keywords.rs:501 -/ def LOW_PRIORITY : Keyword := ⟨424⟩
/-- keywords.rs:502 -/ def LOWER : Keyword := ⟨425⟩
/-- keywords.rs:503 -/ def LPAD : Keyword := ⟨426⟩
/-- keywords.rs:504 -/ def LTRIM : Keyword := ⟨427⟩
/-- keywords.rs:505 -/ def MAKE_SET : Keyword := ⟨428⟩
/-- keywords.rs:506 -/ def MAKEDATE : Keyword := ⟨429⟩
/-- keywords.rs:507 -/ def MAKETIME : Keyword := ⟨430⟩
/-- keywords.rs:508 -/ def MASTER : Keyword := ⟨431⟩
/-- keywords.rs:509 -/ def MASTER_CONNECT_RETRY : Keyword := ⟨432⟩
/-- keywords.rs:510 -/ def MASTER_DELAY : Keyword := ⟨433⟩
/-- keywords.rs:511 -/ def MASTER_GTID_POS : Keyword := ⟨434⟩
/-- keywords.rs:512 -/ def MASTER_HEARTBEAT_PERIOD : Keyword := ⟨435⟩
/-- keywords.rs:513 -/ def MASTER_HOST : Keyword := ⟨436⟩
/-- keywords.rs:514 -/ def MASTER_LOG_FILE : Keyword := ⟨437⟩
/-- keywords.rs:515 -/ def MASTER_LOG_POS : Keyword := ⟨438⟩
/-- keywords.rs:516 -/ def MASTER_PASSWORD : Keyword := ⟨439⟩
/-- keywords.rs:517 -/ def MASTER_PORT : Keyword := ⟨440⟩
/-- keywords.rs:518 -/ def MASTER_SERVER_ID : Keyword := ⟨441⟩
/-- keywords.rs:519 -/ def MASTER_SSL : Keyword := ⟨442⟩
/-- keywords.rs:520 -/ def MASTER_SSL_CA : Keyword := ⟨443⟩
/-- keywords.rs:521 -/ def MASTER_SSL_CAPATH : Keyword := ⟨444⟩
/-- keywords.rs:522 -/ def MASTER_SSL_CERT : Keyword := ⟨445⟩
/-- keywords.rs:523 -/ def MASTER_SSL_CIPHER : Keyword := ⟨446⟩
/-- keywords.rs:524 -/ def MASTER_SSL_CRL : Keyword := ⟨447⟩
/-- keywords.rs:525 -/ def MASTER_SSL_CRLPATH : Keyword := ⟨448⟩
/-- keywords.rs:526 -/ def MASTER_SSL_KEY : Keyword := ⟨449⟩
/-- keywords.rs:527 -/ def MASTER_SSL_VERIFY_SERVER_CERT : Keyword := ⟨450⟩
/-- keywords.rs:528 -/ def MASTER_USE_GTID : Keyword := ⟨451⟩
/-- keywords.rs:529 -/ def MASTER_USER : Keyword := ⟨452⟩
/-- keywords.rs:530 -/ def MATCH : Keyword := ⟨453⟩
/-- keywords.rs:531 -/ def MAX : Keyword := ⟨454⟩
/-- keywords.rs:532 -/ def MAX_CONNECTIONS_PER_HOUR : Keyword := ⟨455⟩
/-- keywords.rs:533 -/ def MAX_QUERIES_PER_HOUR : Keyword := ⟨456⟩
/-- keywords.rs:534 -/ def MAX_ROWS : Keyword := ⟨457⟩
/-- keywords.rs:535 -/ def MAX_SIZE : Keyword := ⟨458⟩
/-- keywords.rs:536 -/ def MAX_STATEMENT_TIME : Keyword := ⟨459⟩
/-- keywords.rs:537 -/ def MAX_UPDATES_PER_HOUR : Keyword := ⟨460⟩
/-- keywords.rs:538 -/ def MAX_USER_CONNECTIONS : Keyword := ⟨461⟩
/-- keywords.rs:539 -/ def MAXVALUE : Keyword := ⟨462⟩
/-- keywords.rs:540 -/ def MEDIUM : Keyword := ⟨463⟩
/-- keywords.rs:541 -/ def MEDIUMBLOB : Keyword := ⟨464⟩
/-- keywords.rs:542 -/ def MEDIUMINT : Keyword := ⟨465⟩
/-- keywords.rs:543 -/ def MEDIUMTEXT : Keyword := ⟨466⟩
/-- keywords.rs:544 -/ def MEMORY : Keyword := ⟨467⟩
/-- keywords.rs:545 -/ def MERGE : Keyword := ⟨468⟩
/-- keywords.rs:546 -/ def MESSAGE_TEXT : Keyword := ⟨469⟩
/-- keywords.rs:547 -/ def MICROSECOND : Keyword := ⟨470⟩
/-- keywords.rs:548 -/ def MID : Keyword := ⟨471⟩
/-- keywords.rs:549 -/ def MIDDLEINT : Keyword := ⟨472⟩
/-- keywords.rs:550 -/ def MIGRATE : Keyword := ⟨473⟩
/-- keywords.rs:551 -/ def MIN : Keyword := ⟨474⟩
/-- keywords.rs:552 -/ def MIN_ROWS : Keyword := ⟨475⟩
/-- keywords.rs:553 -/ def MINUS : Keyword := ⟨476⟩
/-- keywords.rs:554 -/ def MINUTE : Keyword := ⟨477⟩
/-- keywords.rs:555 -/ def MINUTE_MICROSECOND : Keyword := ⟨478⟩
/-- keywords.rs:556 -/ def MINUTE_SECOND : Keyword := ⟨479⟩
/-- keywords.rs:557 -/ def MINVALUE : Keyword := ⟨480⟩
/-- keywords.rs:558 -/ def MOD : Keyword := ⟨481⟩
/-- keywords.rs:559 -/ def MODE : Keyword := ⟨482⟩
/-- keywords.rs:560 -/ def MODIFIES : Keyword := ⟨483⟩
/-- keywords.rs:561 -/ def MODIFY : Keyword := ⟨484⟩
/-- keywords.rs:562 -/ def MONITOR : Keyword := ⟨485⟩
/-- keywords.rs:563 -/ def MONTH : Keyword := ⟨486⟩
/-- keywords.rs:564 -/ def MONTHNAME : Keyword := ⟨487⟩
/-- keywords.rs:565 -/ def MUTEX : Keyword := ⟨488⟩
/-- keywords.rs:566 -/ def MYSQL : Keyword := ⟨489⟩
/-- keywords.rs:567 -/ def MYSQL_ERRNO : Keyword := ⟨490⟩
/-- keywords.rs:568 -/ def NAME : Keyword := ⟨491⟩
/-- keywords.rs:569 -/ def NAMES : Keyword := ⟨492⟩
/-- keywords.rs:570 -/ def NATIONAL : Keyword := ⟨493⟩
/-- keywords.rs:571 -/ def NATURAL : Keyword := ⟨494⟩
/-- keywords.rs:572 -/ def NATURAL_SORT_KEY : Keyword := ⟨495⟩
/-- keywords.rs:573 -/ def NCHAR : Keyword := ⟨496⟩
/-- keywords.rs:574 -/ def NESTED : Keyword := ⟨497⟩
/-- keywords.rs:575 -/ def NEVER : Keyword := ⟨498⟩
/-- keywords.rs:576 -/ def NEW : Keyword := ⟨499⟩
/-- keywords.rs:577 -/ def NEXT : Keyword := ⟨500⟩
/-- keywords.rs:578 -/ def NEXTVAL : Keyword := ⟨501⟩
/-- keywords.rs:579 -/ def NO : Keyword := ⟨502⟩
/-- keywords.rs:580 -/ def NO_WAIT : Keyword := ⟨503⟩
/-- keywords.rs:581 -/ def NO_WRITE_TO_BINLOG : Keyword := ⟨504⟩
/-- keywords.rs:582 -/ def NOCACHE : Keyword := ⟨505⟩
/-- keywords.rs:583 -/ def NOCYCLE : Keyword := ⟨506⟩
/-- keywords.rs:584 -/ def NODEGROUP : Keyword := ⟨507⟩
/-- keywords.rs:585 -/ def NOMAXVALUE : Keyword := ⟨508⟩
/-- keywords.rs:586 -/ def NOMINVALUE : Keyword := ⟨509⟩
/-- keywords.rs:587 -/ def NONE : Keyword := ⟨510⟩
/-- keywords.rs:588 -/ def NOT : Keyword := ⟨511⟩
/-- keywords.rs:589 -/ def NOTFOUND : Keyword := ⟨512⟩
/-- keywords.rs:590 -/ def NOTHING : Keyword := ⟨513⟩
/-- keywords.rs:591 -/ def NOTICE : Keyword := ⟨514⟩
/-- keywords.rs:592 -/ def NOW : Keyword := ⟨515⟩
/-- keywords.rs:593 -/ def NOWAIT : Keyword := ⟨516⟩
/-- keywords.rs:594 -/ def NULL : Keyword := ⟨517⟩
/-- keywords.rs:595 -/ def NULLIF : Keyword := ⟨518⟩
/-- keywords.rs:596 -/ def NUMBER : Keyword := ⟨519⟩
/-- keywords.rs:597 -/ def NUMERIC : Keyword := ⟨520⟩
/-- keywords.rs:598 -/ def NVARCHAR : Keyword := ⟨521⟩
/-- keywords.rs:599 -/ def NVL : Keyword := ⟨522⟩
/-- keywords.rs:600 -/ def NVL2 : Keyword := ⟨523⟩
/-- keywords.rs:601 -/ def OCT : Keyword := ⟨524⟩
/-- keywords.rs:602 -/ def OCTET_LENGTH : Keyword := ⟨525⟩
/-- keywords.rs:603 -/ def OF : Keyword := ⟨526⟩
/-- keywords.rs:604 -/ def OFFSET : Keyword := ⟨527⟩
/-- keywords.rs:605 -/ def OLD_PASSWORD : Keyword := ⟨528⟩
/-- keywords.rs:606 -/ def ON : Keyword := ⟨529⟩
/-- keywords.rs:607 -/ def ONE : Keyword := ⟨530⟩
/-- keywords.rs:608 -/ def ONLINE : Keyword := ⟨531⟩
/-- keywords.rs:609 -/ def ONLY : Keyword := ⟨532⟩
/-- keywords.rs:610 -/ def OPEN : Keyword := ⟨533⟩
/-- keywords.rs:611 -/ def OPTIMIZE : Keyword := ⟨534⟩
/-- keywords.rs:612 -/ def OPTION : Keyword := ⟨535⟩
/-- keywords.rs:613 -/ def OPTIONALLY : Keyword := ⟨536⟩
/-- keywords.rs:614 -/ def OPTIONS : Keyword := ⟨537⟩
/-- keywords.rs:615 -/ def OR : Keyword := ⟨538⟩
/-- keywords.rs:616 -/ def ORD : Keyword := ⟨539⟩
/-- keywords.rs:617 -/ def ORDER : Keyword := ⟨540⟩
/-- keywords.rs:618 -/ def ORDINALITY : Keyword := ⟨541⟩
/-- keywords.rs:619 -/ def OTHERS : Keyword := ⟨542⟩
/-- keywords.rs:620 -/ def OUT : Keyword := ⟨543⟩
/-- keywords.rs:621 -/ def OUTER : Keyword := ⟨544⟩
/-- keywords.rs:622 -/ def OUTFILE : Keyword := ⟨545⟩
/-- keywords.rs:623 -/ def OVER : Keyword := ⟨546⟩
/-- keywords.rs:624 -/ def OVERLAPS : Keyword := ⟨547⟩
/-- keywords.rs:625 -/ def OWNER : Keyword := ⟨548⟩
/-- keywords.rs:626 -/ def PACK_KEYS : Keyword := ⟨549⟩
/-- keywords.rs:627 -/ def PACKAGE : Keyword := ⟨550⟩
/-- keywords.rs:628 -/ def PAGE : Keyword := ⟨551⟩
/-- keywords.rs:629 -/ def PAGE_CHECKSUM : Keyword := ⟨552⟩
/-- keywords.rs:630 -/ def PARSE_VCOL_EXPR : Keyword := ⟨553⟩
/-- keywords.rs:631 -/ def PARSER : Keyword := ⟨554⟩
/-- keywords.rs:632 -/ def PARTIAL : Keyword := ⟨555⟩
/-- keywords.rs:633 -/ def PARTITION : Keyword := ⟨556⟩
/-- keywords.rs:634 -/ def PARTITIONING : Keyword := ⟨557⟩
/-- keywords.rs:635 -/ def PARTITIONS : Keyword := ⟨558⟩
/-- keywords.rs:636 -/ def PASSWORD : Keyword := ⟨559⟩
/-- keywords.rs:637 -/ def PATH : Keyword := ⟨560⟩
/-- keywords.rs:638 -/ def PERIOD : Keyword := ⟨561⟩
/-- keywords.rs:639 -/ def PERIOD_ADD : Keyword := ⟨562⟩
/-- keywords.rs:640 -/ def PERIOD_DIFF : Keyword := ⟨563⟩
/-- keywords.rs:641 -/ def PERSISTENT : Keyword := ⟨564⟩
/-- keywords.rs:642 -/ def PHASE : Keyword := ⟨565⟩
/-- keywords.rs:643 -/ def PI : Keyword := ⟨566⟩
/-- keywords.rs:644 -/ def PLPGSQL : Keyword := ⟨567⟩
/-- keywords.rs:645 -/ def PLUGIN : Keyword := ⟨568⟩
/-- keywords.rs:646 -/ def PLUGINS : Keyword := ⟨569⟩
/-- keywords.rs:647 -/ def PORT : Keyword := ⟨570⟩
/-- keywords.rs:648 -/ def PORTION : Keyword := ⟨571⟩
/-- keywords.rs:649 -/ def POSITION : Keyword := ⟨572⟩
/-- keywords.rs:650 -/ def POW : Keyword := ⟨573⟩
/-- keywords.rs:651 -/ def POWER : Keyword := ⟨574⟩
/-- keywords.rs:652 -/ def PRECEDES : Keyword := ⟨575⟩
/-- keywords.rs:653 -/ def PRECEDING : Keyword := ⟨576⟩
/-- keywords.rs:654 -/ def PRECISION : Keyword := ⟨577⟩
/-- keywords.rs:655 -/ def PREPARE : Keyword := ⟨578⟩
/-- keywords.rs:656 -/ def PRESERVE : Keyword := ⟨579⟩
/-- keywords.rs:657 -/ def PREV : Keyword := ⟨580⟩
/-- keywords.rs:658 -/ def PREVIOUS : Keyword := ⟨581⟩
/-- keywords.rs:659 -/ def PRIMARY : Keyword := ⟨582⟩
/-- keywords.rs:660 -/ def PRIVILEGES : Keyword := ⟨583⟩
/-- keywords.rs:661 -/ def PROCEDURE : Keyword := ⟨584⟩
/-- keywords.rs:662 -/ def PROCESS : Keyword := ⟨585⟩
/-- keywords.rs:663 -/ def PROCESSLIST : Keyword := ⟨586⟩
/-- keywords.rs:664 -/ def PROFILE : Keyword := ⟨587⟩
/-- keywords.rs:665 -/ def PROFILES : Keyword := ⟨588⟩
/-- keywords.rs:666 -/ def PROXY : Keyword := ⟨589⟩
/-- keywords.rs:667 -/ def PURGE : Keyword := ⟨590⟩
/-- keywords.rs:668 -/ def QUARTER : Keyword := ⟨591⟩
/-- keywords.rs:669 -/ def QUERY : Keyword := ⟨592⟩
/-- keywords.rs:670 -/ def QUICK : Keyword := ⟨593⟩
/-- keywords.rs:671 -/ def QUOTE : Keyword := ⟨594⟩
/-- keywords.rs:672 -/ def RADIANS : Keyword := ⟨595⟩
/-- keywords.rs:673 -/ def RAISE : Keyword := ⟨596⟩
/-- keywords.rs:674 -/ def RAND : Keyword := ⟨597⟩
/-- keywords.rs:675 -/ def RANGE : Keyword := ⟨598⟩
/-- keywords.rs:676 -/ def RAW : Keyword := ⟨599⟩
/-- keywords.rs:677 -/ def READ : Keyword := ⟨600⟩
/-- keywords.rs:678 -/ def READ_ONLY : Keyword := ⟨601⟩
/-- keywords.rs:679 -/ def READ_WRITE : Keyword := ⟨602⟩
/-- keywords.rs:680 -/ def READS : Keyword := ⟨603⟩
/-- keywords.rs:681 -/ def REAL : Keyword := ⟨604⟩
/-- keywords.rs:682 -/ def REBUILD : Keyword := ⟨605⟩
/-- keywords.rs:683 -/ def RECOVER : Keyword := ⟨606⟩
/-- keywords.rs:684 -/ def RECURSIVE : Keyword := ⟨607⟩
/-- keywords.rs:685 -/ def REDO_BUFFER_SIZE : Keyword := ⟨608⟩
/-- keywords.rs:686 -/ def REDOFILE : Keyword := ⟨609⟩
/-- keywords.rs:687 -/ def REDUNDANT : Keyword := ⟨610⟩
/-- keywords.rs:688 -/ def REF_SYSTEM_ID : Keyword := ⟨611⟩
/-- keywords.rs:689 -/ def REFERENCES : Keyword := ⟨612⟩
/-- keywords.rs:690 -/ def REGEXP : Keyword := ⟨613⟩
/-- keywords.rs:691 -/ def RELAY : Keyword := ⟨614⟩
/-- keywords.rs:692 -/ def RELAY_LOG_FILE : Keyword := ⟨615⟩
/-- keywords.rs:693 -/ def RELAY_LOG_POS : Keyword := ⟨616⟩
/-- keywords.rs:694 -/ def RELAY_THREAD : Keyword := ⟨617⟩
/-- keywords.rs:695 -/ def RELAYLOG : Keyword := ⟨618⟩
/-- keywords.rs:696 -/ def RELEASE : Keyword := ⟨619⟩
/-- keywords.rs:697 -/ def RELOAD : Keyword := ⟨620⟩
/-- keywords.rs:698 -/ def REMOVE : Keyword := ⟨621⟩
/-- keywords.rs:699 -/ def RENAME : Keyword := ⟨622⟩
/-- keywords.rs:700 -/ def REORGANIZE : Keyword := ⟨623⟩
/-- keywords.rs:701 -/ def REPAIR : Keyword := ⟨624⟩
/-- keywords.rs:702 -/ def REPEAT : Keyword := ⟨625⟩
/-- keywords.rs:703 -/ def REPEATABLE : Keyword := ⟨626⟩
/-- keywords.rs:704 -/ def REPLACE : Keyword := ⟨627⟩
/-- keywords.rs:705 -/ def REPLAY : Keyword := ⟨628⟩
/-- keywords.rs:706 -/ def REPLICA : Keyword := ⟨629⟩
/-- keywords.rs:707 -/ def REPLICA_POS : Keyword := ⟨630⟩
/-- keywords.rs:708 -/ def REPLICAS : Keyword := ⟨631⟩
/-- keywords.rs:709 -/ def REPLICATION : Keyword := ⟨632⟩
/-- keywords.rs:710 -/ def REQUIRE : Keyword := ⟨633⟩
/-- keywords.rs:711 -/ def RESET : Keyword := ⟨634⟩
/-- keywords.rs:712 -/ def RESIGNAL : Keyword := ⟨635⟩
/-- keywords.rs:713 -/ def RESTART : Keyword := ⟨636⟩
/-- keywords.rs:714 -/ def RESTORE : Keyword := ⟨637⟩
/-- keywords.rs:715 -/ def RESTRICT : Keyword := ⟨638⟩
/-- keywords.rs:716 -/ def RESUME : Keyword := ⟨639⟩
/-- keywords.rs:717 -/ def RETURN : Keyword := ⟨640⟩
/-- keywords.rs:718 -/ def RETURNED_SQLSTATE : Keyword := ⟨641⟩
/-- keywords.rs:719 -/ def RETURNING : Keyword := ⟨642⟩
/-- keywords.rs:720 -/ def RETURNS : Keyword := ⟨643⟩
/-- keywords.rs:721 -/ def REUSE : Keyword := ⟨644⟩
/-- keywords.rs:722 -/ def REVERSE : Keyword := ⟨645⟩
/-- keywords.rs:723 -/ def REVOKE : Keyword := ⟨646⟩
/-- keywords.rs:724 -/ def RIGHT : Keyword := ⟨647⟩
/-- keywords.rs:725 -/ def RLIKE : Keyword := ⟨648⟩
/-- keywords.rs:726 -/ def ROLE : Keyword := ⟨649⟩
/-- keywords.rs:727 -/ def ROLLBACK : Keyword := ⟨650⟩
/-- keywords.rs:728 -/ def ROLLUP : Keyword := ⟨651⟩
/-- keywords.rs:729 -/ def ROUND : Keyword := ⟨652⟩
/-- keywords.rs:730 -/ def ROUTINE : Keyword := ⟨653⟩
/-- keywords.rs:731 -/ def ROW : Keyword := ⟨654⟩
/-- keywords.rs:732 -/ def ROW_COUNT : Keyword := ⟨655⟩
/-- keywords.rs:733 -/ def ROW_FORMAT : Keyword := ⟨656⟩
/-- keywords.rs:734 -/ def ROWCOUNT : Keyword := ⟨657⟩
/-- keywords.rs:735 -/ def ROWNUM : Keyword := ⟨658⟩
/-- keywords.rs:736 -/ def ROWS : Keyword := ⟨659⟩
/-- keywords.rs:737 -/ def ROWTYPE : Keyword := ⟨660⟩
/-- keywords.rs:738 -/ def RPAD : Keyword := ⟨661⟩
/-- keywords.rs:739 -/ def RTREE : Keyword := ⟨662⟩
/-- keywords.rs:740 -/ def RTRIM : Keyword := ⟨663⟩
/-- keywords.rs:741 -/ def SAVEPOINT : Keyword := ⟨664⟩
/-- keywords.rs:742 -/ def SCHEDULE : Keyword := ⟨665⟩
/-- keywords.rs:743 -/ def SCHEMA : Keyword := ⟨666⟩
/-- keywords.rs:744 -/ def SCHEMA_NAME : Keyword := ⟨667⟩
/-- keywords.rs:745 -/ def SCHEMAS : Keyword := ⟨668⟩
/-- keywords.rs:746 -/ def SEC_TO_TIME : Keyword := ⟨669⟩
/-- keywords.rs:747 -/ def SECOND : Keyword := ⟨670⟩
/-- keywords.rs:748 -/ def SECOND_MICROSECOND : Keyword := ⟨671⟩
/-- keywords.rs:749 -/ def SECURITY : Keyword := ⟨672⟩
/-- keywords.rs:750 -/ def SELECT : Keyword := ⟨673⟩
/-- keywords.rs:751 -/ def SENSITIVE : Keyword := ⟨674⟩
/-- keywords.rs:752 -/ def SEPARATOR : Keyword := ⟨675⟩
/-- keywords.rs:753 -/ def SEQUENCE : Keyword := ⟨676⟩
/-- keywords.rs:754 -/ def SERIAL : Keyword := ⟨677⟩
/-- keywords.rs:755 -/ def SERIALIZABLE : Keyword := ⟨678⟩
/-- keywords.rs:756 -/ def SERVER : Keyword := ⟨679⟩
/-- keywords.rs:757 -/ def SESSION : Keyword := ⟨680⟩
/-- keywords.rs:758 -/ def SET : Keyword := ⟨681⟩
/-- keywords.rs:759 -/ def SETVAL : Keyword := ⟨682⟩
/-- keywords.rs:760 -/ def SFORMAT : Keyword := ⟨683⟩
/-- keywords.rs:761 -/ def SHARE : Keyword := ⟨684⟩
/-- keywords.rs:762 -/ def SHOW : Keyword := ⟨685⟩
/-- keywords.rs:763 -/ def SHUTDOWN : Keyword := ⟨686⟩
/-- keywords.rs:764 -/ def SIGN : Keyword := ⟨687⟩
/-- keywords.rs:765 -/ def SIGNAL : Keyword := ⟨688⟩
/-- keywords.rs:766 -/ def SIGNED : Keyword := ⟨689⟩
/-- keywords.rs:767 -/ def SIMPLE : Keyword := ⟨690⟩
/-- keywords.rs:768 -/ def SIN : Keyword := ⟨691⟩
/-- keywords.rs:769 -/ def SKIP : Keyword := ⟨692⟩
/-- keywords.rs:770 -/ def SLAVE : Keyword := ⟨693⟩
/-- keywords.rs:771 -/ def SLAVE_POS : Keyword := ⟨694⟩
/-- keywords.rs:772 -/ def SLAVES : Keyword := ⟨695⟩
/-- keywords.rs:773 -/ def SLOW : Keyword := ⟨696⟩
/-- keywords.rs:774 -/ def SMALLINT : Keyword := ⟨697⟩
/-- keywords.rs:775 -/ def SNAPSHOT : Keyword := ⟨698⟩
/-- keywords.rs:776 -/ def SOCKET : Keyword := ⟨699⟩
/-- keywords.rs:777 -/ def SOFT : Keyword := ⟨700⟩
/-- keywords.rs:778 -/ def SOME : Keyword := ⟨701⟩
/-- keywords.rs:779 -/ def SONAME : Keyword := ⟨702⟩
/-- keywords.rs:780 -/ def SOUNDEX : Keyword := ⟨703⟩
/-- keywords.rs:781 -/ def SOUNDS : Keyword := ⟨704⟩
/-- keywords.rs:782 -/ def SOURCE : Keyword := ⟨705⟩
/-- keywords.rs:783 -/ def SPACE : Keyword := ⟨706⟩
/-- keywords.rs:784 -/ def SPATIAL : Keyword := ⟨707⟩
/-- keywords.rs:785 -/ def SPECIFIC : Keyword := ⟨708⟩
/-- keywords.rs:786 -/ def SQL : Keyword := ⟨709⟩
/-- keywords.rs:787 -/ def SQL_BIG_RESULT : Keyword := ⟨710⟩
/-- keywords.rs:788 -/ def SQL_BUFFER_RESULT : Keyword := ⟨711⟩
/-- keywords.rs:789 -/ def SQL_CACHE : Keyword := ⟨712⟩
/-- keywords.rs:790 -/ def SQL_CALC_FOUND_ROWS : Keyword := ⟨713⟩
/-- keywords.rs:791 -/ def SQL_NO_CACHE : Keyword := ⟨714⟩
/-- keywords.rs:792 -/ def SQL_SMALL_RESULT : Keyword := ⟨715⟩
/-- keywords.rs:793 -/ def SQL_THREAD : Keyword := ⟨716⟩
/-- keywords.rs:794 -/ def SQL_TSI_DAY : Keyword := ⟨717⟩
/-- keywords.rs:795 -/ def SQL_TSI_HOUR : Keyword := ⟨718⟩
/-- keywords.rs:796 -/ def SQL_TSI_MINUTE : Keyword := ⟨719⟩
/-- keywords.rs:797 -/ def SQL_TSI_MONTH : Keyword := ⟨720⟩
/-- keywords.rs:798 -/ def SQL_TSI_QUARTER : Keyword := ⟨721⟩
/-- keywords.rs:799 -/ def SQL_TSI_SECOND : Keyword := ⟨722⟩
/-- keywords.rs:800 -/ def SQL_TSI_WEEK : Keyword := ⟨723⟩
/-- keywords.rs:801 -/ def SQL_TSI_YEAR : Keyword := ⟨724⟩
/-- keywords.rs:802 -/ def SQLEXCEPTION : Keyword := ⟨725⟩
/-- keywords.rs:803 -/ def SQLSTATE : Keyword := ⟨726⟩
/-- keywords.rs:804 -/ def SQLWARNING : Keyword := ⟨727⟩
/-- keywords.rs:805 -/ def SQRT : Keyword := ⟨728⟩
/-- keywords.rs:806 -/ def SSL : Keyword := ⟨729⟩
/-- keywords.rs:807 -/ def STAGE : Keyword := ⟨730⟩
/-- keywords.rs:808 -/ def START : Keyword := ⟨731⟩
/-- keywords.rs:809 -/ def STARTING : Keyword := ⟨732⟩
/-- keywords.rs:810 -/ def STARTS : Keyword := ⟨733⟩
/-- keywords.rs:811 -/ def STARTS_WITH : Keyword := ⟨734⟩
/-- keywords.rs:812 -/ def STATEMENT : Keyword := ⟨735⟩
/-- keywords.rs:813 -/ def STATS_AUTO_RECALC : Keyword := ⟨736⟩
/-- keywords.rs:814 -/ def STATS_PERSISTENT : Keyword := ⟨737⟩
/-- keywords.rs:815 -/ def STATS_SAMPLE_PAGES : Keyword := ⟨738⟩
/-- keywords.rs:816 -/ def STATUS : Keyword := ⟨739⟩
/-- keywords.rs:817 -/ def STDIN : Keyword := ⟨740⟩
/-- keywords.rs:818 -/ def STOP : Keyword := ⟨741⟩
/-- keywords.rs:819 -/ def STORAGE : Keyword := ⟨742⟩
/-- keywords.rs:820 -/ def STORED : Keyword := ⟨743⟩
/-- keywords.rs:821 -/ def STR_TO_DATE : Keyword := ⟨744⟩
/-- keywords.rs:822 -/ def STRAIGHT_JOIN : Keyword := ⟨745⟩
/-- keywords.rs:823 -/ def STRCMP : Keyword := ⟨746⟩
/-- keywords.rs:824 -/ def STRFTIME : Keyword := ⟨747⟩
/-- keywords.rs:825 -/ def STRICT : Keyword := ⟨748⟩
/-- keywords.rs:826 -/ def STRING : Keyword := ⟨749⟩
/-- keywords.rs:827 -/ def SUBCLASS_ORIGIN : Keyword := ⟨750⟩
/-- keywords.rs:828 -/ def SUBDATE : Keyword := ⟨751⟩
/-- keywords.rs:829 -/ def SUBJECT : Keyword := ⟨752⟩
/-- keywords.rs:830 -/ def SUBPARTITION : Keyword := ⟨753⟩
/-- keywords.rs:831 -/ def SUBPARTITIONS : Keyword := ⟨754⟩
/-- keywords.rs:832 -/ def SUBSTR : Keyword := ⟨755⟩
/-- keywords.rs:833 -/ def SUBSTRING : Keyword := ⟨756⟩
/-- keywords.rs:834 -/ def SUBSTRING_INDEX : Keyword := ⟨757⟩
/-- keywords.rs:835 -/ def SUBTIME : Keyword := ⟨758⟩
/-- keywords.rs:836 -/ def SUM : Keyword := ⟨759⟩
/-- keywords.rs:837 -/ def SUPER : Keyword := ⟨760⟩
/-- keywords.rs:838 -/ def SUSPEND : Keyword := ⟨761⟩
/-- keywords.rs:839 -/ def SWAPS : Keyword := ⟨762⟩
/-- keywords.rs:840 -/ def SWITCHES : Keyword := ⟨763⟩
/-- keywords.rs:841 -/ def SYSDATE : Keyword := ⟨764⟩
/-- keywords.rs:842 -/ def SYSTEM : Keyword := ⟨765⟩
/-- keywords.rs:843 -/ def SYSTEM_TIME : Keyword := ⟨766⟩
/-- keywords.rs:844 -/ def TABLE : Keyword := ⟨767⟩
/-- keywords.rs:845 -/ def TABLE_CHECKSUM : Keyword := ⟨768⟩
/-- keywords.rs:846 -/ def TABLE_NAME : Keyword := ⟨769⟩
/-- keywords.rs:847 -/ def TABLES : Keyword := ⟨770⟩
/-- keywords.rs:848 -/ def TABLESPACE : Keyword := ⟨771⟩
/-- keywords.rs:849 -/ def TAN : Keyword := ⟨772⟩
/-- keywords.rs:850 -/ def TEMPORARY : Keyword := ⟨773⟩
/-- keywords.rs:851 -/ def TEMPTABLE : Keyword := ⟨774⟩
/-- keywords.rs:852 -/ def TERMINATED : Keyword := ⟨775⟩
/-- keywords.rs:853 -/ def TEXT : Keyword := ⟨776⟩
/-- keywords.rs:854 -/ def TEXT_PATTERN_OPS : Keyword := ⟨777⟩
/-- keywords.rs:855 -/ def THAN : Keyword := ⟨778⟩
/-- keywords.rs:856 -/ def THEN : Keyword := ⟨779⟩
/-- keywords.rs:857 -/ def THREADS : Keyword := ⟨780⟩
/-- keywords.rs:858 -/ def TIES : Keyword := ⟨781⟩
/-- keywords.rs:859 -/ def TIME : Keyword := ⟨782⟩
/-- keywords.rs:860 -/ def TIME_FORMAT : Keyword := ⟨783⟩
/-- keywords.rs:861 -/ def TIME_TO_SEC : Keyword := ⟨784⟩
/-- keywords.rs:862 -/ def TIME_ZONE : Keyword := ⟨785⟩
/-- keywords.rs:863 -/ def TIMEDIFF : Keyword := ⟨786⟩
/-- keywords.rs:864 -/ def TIMESTAMP : Keyword := ⟨787⟩
/-- keywords.rs:865 -/ def TIMESTAMPADD : Keyword := ⟨788⟩
/-- keywords.rs:866 -/ def TIMESTAMPDIFF : Keyword := ⟨789⟩
/-- keywords.rs:867 -/ def TIMESTAMPTZ : Keyword := ⟨790⟩
/-- keywords.rs:868 -/ def TINYBLOB : Keyword := ⟨791⟩
/-- keywords.rs:869 -/ def TINYINT : Keyword := ⟨792⟩
/-- keywords.rs:870 -/ def TINYTEXT : Keyword := ⟨793⟩
/-- keywords.rs:871 -/ def TO : Keyword := ⟨794⟩
/-- keywords.rs:872 -/ def TO_BASE64 : Keyword := ⟨795⟩
/-- keywords.rs:873 -/ def TO_CHAR : Keyword := ⟨796⟩
/-- keywords.rs:874 -/ def TO_DAYS : Keyword := ⟨797⟩
/-- keywords.rs:875 -/ def TO_SECONDS : Keyword := ⟨798⟩
/-- keywords.rs:876 -/ def TRAILING : Keyword := ⟨799⟩
/-- keywords.rs:877 -/ def TRANSACTION : Keyword := ⟨800⟩
/-- keywords.rs:878 -/ def TRANSACTIONAL : Keyword := ⟨801⟩
/-- keywords.rs:879 -/ def TRIGGER : Keyword := ⟨802⟩
/-- keywords.rs:880 -/ def TRIGGERS : Keyword := ⟨803⟩
/-- keywords.rs:881 -/ def TRUE : Keyword := ⟨804⟩
/-- keywords.rs:882 -/ def TRUNCATE : Keyword := ⟨805⟩
/-- keywords.rs:883 -/ def TYPE : Keyword := ⟨806⟩
/-- keywords.rs:884 -/ def TYPES : Keyword := ⟨807⟩
/-- keywords.rs:885 -/ def UCASE : Keyword := ⟨808⟩
/-- keywords.rs:886 -/ def UNBOUNDED : Keyword := ⟨809⟩
/-- keywords.rs:887 -/ def UNCOMMITTED : Keyword := ⟨810⟩
/-- keywords.rs:888 -/ def UNCOMPRESSED_LENGTH : Keyword := ⟨811⟩
/-- keywords.rs:889 -/ def UNDEFINED : Keyword := ⟨812⟩
/-- keywords.rs:890 -/ def UNDO : Keyword := ⟨813⟩
/-- keywords.rs:891 -/ def UNDO_BUFFER_SIZE : Keyword := ⟨814⟩
/-- keywords.rs:892 -/ def UNDOFILE : Keyword := ⟨815⟩
/-- keywords.rs:893 -/ def UNHEX : Keyword := ⟨816⟩
/-- keywords.rs:894 -/ def UNICODE : Keyword := ⟨817⟩
/-- keywords.rs:895 -/ def UNINSTALL : Keyword := ⟨818⟩
/-- keywords.rs:896 -/ def UNION : Keyword := ⟨819⟩
/-- keywords.rs:897 -/ def UNIQUE : Keyword := ⟨820⟩
/-- keywords.rs:898 -/ def UNIX_TIMESTAMP : Keyword := ⟨821⟩
/-- keywords.rs:899 -/ def UNKNOWN : Keyword := ⟨822⟩
/-- keywords.rs:900 -/ def UNLOCK : Keyword := ⟨823⟩
/-- keywords.rs:901 -/ def UNSIGNED : Keyword := ⟨824⟩
/-- keywords.rs:902 -/ def UNTIL : Keyword := ⟨825⟩
/-- keywords.rs:903 -/ def UPDATE : Keyword := ⟨826⟩
/-- keywords.rs:904 -/ def UPDATEXML : Keyword := ⟨827⟩
/-- keywords.rs:905 -/ def UPGRADE : Keyword := ⟨828⟩
/-- keywords.rs:906 -/ def UPPER : Keyword := ⟨829⟩
/-- keywords.rs:907 -/ def USAGE : Keyword := ⟨830⟩
/-- keywords.rs:908 -/ def USE : Keyword := ⟨831⟩
/-- keywords.rs:909 -/ def USE_FRM : Keyword := ⟨832⟩
/-- keywords.rs:910 -/ def USER : Keyword := ⟨833⟩
/-- keywords.rs:911 -/ def USER_RESOURCES : Keyword := ⟨834⟩
/-- keywords.rs:912 -/ def USING : Keyword := ⟨835⟩
/-- keywords.rs:913 -/ def UTC_DATE : Keyword := ⟨836⟩
/-- keywords.rs:914 -/ def UTC_TIME : Keyword := ⟨837⟩
/-- keywords.rs:915 -/ def UTC_TIMESTAMP : Keyword := ⟨838⟩
/-- keywords.rs:916 -/ def VALUE : Keyword := ⟨839⟩
/-- keywords.rs:917 -/ def VALUES : Keyword := ⟨840⟩
/-- keywords.rs:918 -/ def VARBINARY : Keyword := ⟨841⟩
/-- keywords.rs:919 -/ def VARCHAR : Keyword := ⟨842⟩
/-- keywords.rs:920 -/ def VARCHAR_PATTERN_OPS : Keyword := ⟨843⟩
/-- keywords.rs:921 -/ def VARCHAR2 : Keyword := ⟨844⟩
/-- keywords.rs:922 -/ def VARCHARACTER : Keyword := ⟨845⟩
/-- keywords.rs:923 -/ def VARIABLES : Keyword := ⟨846⟩
/-- keywords.rs:924 -/ def VARYING : Keyword := ⟨847⟩
/-- keywords.rs:925 -/ def VERSIONING : Keyword := ⟨848⟩
/-- keywords.rs:926 -/ def VIA : Keyword := ⟨849⟩
/-- keywords.rs:927 -/ def VIEW : Keyword := ⟨850⟩
/-- keywords.rs:928 -/ def VIRTUAL : Keyword := ⟨851⟩
/-- keywords.rs:929 -/ def VISIBLE : Keyword := ⟨852⟩
/-- keywords.rs:930 -/ def WAIT : Keyword := ⟨853⟩
/-- keywords.rs:931 -/ def WARNINGS : Keyword := ⟨854⟩
/-- keywords.rs:932 -/ def WEEK : Keyword := ⟨855⟩
/-- keywords.rs:933 -/ def WEEKDAY : Keyword := ⟨856⟩
/-- keywords.rs:934 -/ def WEEKOFYEAR : Keyword := ⟨857⟩
/-- keywords.rs:935 -/ def WEIGHT_STRING : Keyword := ⟨858⟩
/-- keywords.rs:936 -/ def WHEN : Keyword := ⟨859⟩
/-- keywords.rs:937 -/ def WHERE : Keyword := ⟨860⟩
/-- keywords.rs:938 -/ def WHILE : Keyword := ⟨861⟩
/-- keywords.rs:939 -/ def WINDOW : Keyword := ⟨862⟩
/-- keywords.rs:940 -/ def WITH : Keyword := ⟨863⟩
/-- keywords.rs:941 -/ def WITHIN : Keyword := ⟨864⟩
/-- keywords.rs:942 -/ def WITHOUT : Keyword := ⟨865⟩
/-- keywords.rs:943 -/ def WORK : Keyword := ⟨866⟩
/-- keywords.rs:944 -/ def WRAPPER : Keyword := ⟨867⟩
/-- keywords.rs:945 -/ def WRITE : Keyword := ⟨868⟩
/-- keywords.rs:946 -/ def X509 : Keyword := ⟨869⟩
/-- keywords.rs:947 -/ def XA : Keyword := ⟨870⟩
/-- keywords.rs:948 -/ def XML : Keyword := ⟨871⟩
/-- keywords.rs:949 -/ def XOR : Keyword := ⟨872⟩
/-- keywords.rs:950 -/ def YEAR : Keyword := ⟨873⟩
/-- keywords.rs:951 -/ def YEAR_MONTH : Keyword := ⟨874⟩
/-- keywords.rs:952 -/ def YEARWEEK : Keyword := ⟨875⟩
/-- keywords.rs:953 -/ def ZEROFILL : Keyword := ⟨876⟩
/-- keywords.rs:954 -/ def ZONE : Keyword := ⟨877⟩
end Keyword

/-- part 0 of the keyword list keywords.rs:78-955 -/
def kwNames0 : List (List Char) := [
  c!"_LIST_",
  c!"ABS",
  c!"ACCESSIBLE",
  c!"ACCOUNT",
  c!"ACOS",
  c!"ACTION",
  c!"ADD",
  c!"ADD_MONTHS",
  c!"ADDDATE",
  c!"ADDTIME",
  c!"ADMIN",
  c!"AFTER",
  c!"AGAINST",
  c!"AGGREGATE",
  c!"ALGORITHM",
  c!"ALL",
  c!"ALTER",
  c!"ALWAYS",
  c!"ANALYZE",
  c!"AND",
  c!"ANY",
  c!"AS",
  c!"ASC",
  c!"ASCII",
  c!"ASENSITIVE",
  c!"ASIN",
  c!"AT",
  c!"ATAN",
  c!"ATAN2",
  c!"ATOMIC",
  c!"AUTHORS",
  c!"AUTO",
  c!"AUTO_INCREMENT",
  c!"AUTOEXTEND_SIZE",
  c!"AVG",
  c!"AVG_ROW_LENGTH",
  c!"BACKUP",
  c!"BEFORE",
  c!"BEGIN",
  c!"BETWEEN",
  c!"BIGINT",
  c!"BIN",
  c!"BINARY",
  c!"BINLOG",
  c!"BIT",
  c!"BIT_LENGTH",
  c!"BLOB",
  c!"BLOCK",
  c!"BODY",
  c!"BOOL",
  c!"BOOLEAN",
  c!"BOTH",
  c!"BPCHAR_PATTERN_OPS",
  c!"BTREE",
  c!"BY",
  c!"BYTE",
  c!"BYTEA",
  c!"CACHE",
  c!"CALL",
  c!"CASCADE"]

/-- part 1 of the keyword list keywords.rs:78-955 -/
def kwNames1 : List (List Char) := [
  c!"CASCADED",
  c!"CASE",
  c!"CAST",
  c!"CATALOG_NAME",
  c!"CEIL",
  c!"CEILING",
  c!"CHAIN",
  c!"CHANGE",
  c!"CHANGED",
  c!"CHAR",
  c!"CHAR_LENGTH",
  c!"CHARACTER",
  c!"CHARACTER_LENGTH",
  c!"CHARSET",
  c!"CHECK",
  c!"CHECKPOINT",
  c!"CHECKSUM",
  c!"CHR",
  c!"CIPHER",
  c!"CLASS_ORIGIN",
  c!"CLIENT",
  c!"CLOB",
  c!"CLOSE",
  c!"COALESCE",
  c!"CODE",
  c!"COLLATE",
  c!"COLLATION",
  c!"COLUMN",
  c!"COLUMN_ADD",
  c!"COLUMN_CHECK",
  c!"COLUMN_CREATE",
  c!"COLUMN_DELETE",
  c!"COLUMN_GET",
  c!"COLUMN_NAME",
  c!"COLUMNS",
  c!"COMMENT",
  c!"COMMIT",
  c!"COMMITTED",
  c!"COMPACT",
  c!"COMPLETION",
  c!"COMPRESSED",
  c!"CONCAT",
  c!"CONCAT_WS",
  c!"CONCURRENT",
  c!"CONDITION",
  c!"CONFLICT",
  c!"CONNECTION",
  c!"CONSISTENT",
  c!"CONSTRAINT",
  c!"CONSTRAINT_CATALOG",
  c!"CONSTRAINT_NAME",
  c!"CONSTRAINT_SCHEMA",
  c!"CONTAINS",
  c!"CONTEXT",
  c!"CONTINUE",
  c!"CONTRIBUTORS",
  c!"CONV",
  c!"CONVERT",
  c!"CONVERT_TZ",
  c!"COPY"]

/-- part 2 of the keyword list keywords.rs:78-955 -/
def kwNames2 : List (List Char) := [
  c!"COS",
  c!"COT",
  c!"COUNT",
  c!"CPU",
  c!"CRC32",
  c!"CRC32C",
  c!"CREATE",
  c!"CROSS",
  c!"CUBE",
  c!"CURDATE",
  c!"CURRENT",
  c!"CURRENT_DATE",
  c!"CURRENT_POS",
  c!"CURRENT_ROLE",
  c!"CURRENT_TIME",
  c!"CURRENT_TIMESTAMP",
  c!"CURRENT_USER",
  c!"CURSOR",
  c!"CURSOR_NAME",
  c!"CURTIME",
  c!"CYCLE",
  c!"DATA",
  c!"DATABASE",
  c!"DATABASES",
  c!"DATAFILE",
  c!"DATE",
  c!"DATE_ADD",
  c!"DATE_FORMAT",
  c!"DATE_SUB",
  c!"DATEDIFF",
  c!"DATETIME",
  c!"DAY",
  c!"DAY_HOUR",
  c!"DAY_MICROSECOND",
  c!"DAY_MINUTE",
  c!"DAY_SECOND",
  c!"DAYNAME",
  c!"DAYOFMONTH",
  c!"DAYOFWEEK",
  c!"DAYOFYEAR",
  c!"DEALLOCATE",
  c!"DEC",
  c!"DECIMAL",
  c!"DECLARE",
  c!"DEFAULT",
  c!"DEFINER",
  c!"DEGREES",
  c!"DELAY_KEY_WRITE",
  c!"DELAYED",
  c!"DELETE",
  c!"DELETE_DOMAIN_ID",
  c!"DELIMITER",
  c!"DES_KEY_FILE",
  c!"DESC",
  c!"DESCRIBE",
  c!"DETERMINISTIC",
  c!"DIAGNOSTICS",
  c!"DIRECTORY",
  c!"DISABLE",
  c!"DISCARD"]

/-- part 3 of the keyword list keywords.rs:78-955 -/
def kwNames3 : List (List Char) := [
  c!"DISK",
  c!"DISTINCT",
  c!"DISTINCTROW",
  c!"DIV",
  c!"DO",
  c!"DO_DOMAIN_IDS",
  c!"DOUBLE",
  c!"DROP",
  c!"DUAL",
  c!"DUMPFILE",
  c!"DUPLICATE",
  c!"DYNAMIC",
  c!"EACH",
  c!"ELSE",
  c!"ELSEIF",
  c!"ELSIF",
  c!"ELT",
  c!"EMPTY",
  c!"ENABLE",
  c!"ENCLOSED",
  c!"END",
  c!"ENDS",
  c!"ENGINE",
  c!"ENGINES",
  c!"ENUM",
  c!"ERROR",
  c!"ERRORS",
  c!"ESCAPE",
  c!"ESCAPED",
  c!"EVENT",
  c!"EVENTS",
  c!"EVERY",
  c!"EXAMINED",
  c!"EXCEPT",
  c!"EXCEPTION",
  c!"EXCHANGE",
  c!"EXCLUDE",
  c!"EXECUTE",
  c!"EXISTS",
  c!"EXIT",
  c!"EXP",
  c!"EXPANSION",
  c!"EXPIRE",
  c!"EXPLAIN",
  c!"EXPORT",
  c!"EXPORT_SET",
  c!"EXTENDED",
  c!"EXTENT_SIZE",
  c!"EXTRACT",
  c!"EXTRACTVALUE",
  c!"FALSE",
  c!"FAST",
  c!"FAULTS",
  c!"FEDERATED",
  c!"FETCH",
  c!"FIELD",
  c!"FIELDS",
  c!"FILE",
  c!"FIND_IN_SET",
  c!"FIRST"]

/-- part 4 of the keyword list keywords.rs:78-955 -/
def kwNames4 : List (List Char) := [
  c!"FIXED",
  c!"FLOAT",
  c!"FLOAT4",
  c!"FLOAT8",
  c!"FLOOR",
  c!"FLUSH",
  c!"FOLLOWING",
  c!"FOLLOWS",
  c!"FOR",
  c!"FORCE",
  c!"FOREIGN",
  c!"FORMAT",
  c!"FOUND",
  c!"FROM",
  c!"FROM_BASE64",
  c!"FROM_DAYS",
  c!"FROM_UNIXTIME",
  c!"FULL",
  c!"FULLTEXT",
  c!"FUNCTION",
  c!"GENERAL",
  c!"GENERATED",
  c!"GET",
  c!"GET_FORMAT",
  c!"GIST",
  c!"GLOBAL",
  c!"GOTO",
  c!"GRANT",
  c!"GRANTS",
  c!"GREATEST",
  c!"GROUP",
  c!"GROUP_CONCAT",
  c!"HANDLER",
  c!"HARD",
  c!"HASH",
  c!"HAVING",
  c!"HELP",
  c!"HEX",
  c!"HIGH_PRIORITY",
  c!"HISTORY",
  c!"HOST",
  c!"HOSTS",
  c!"HOUR",
  c!"HOUR_MICROSECOND",
  c!"HOUR_MINUTE",
  c!"HOUR_SECOND",
  c!"ID",
  c!"IDENTIFIED",
  c!"IDENTITY",
  c!"IF",
  c!"IFNULL",
  c!"IGNORE",
  c!"IGNORE_DOMAIN_IDS",
  c!"IGNORE_SERVER_IDS",
  c!"IGNORED",
  c!"IMMEDIATE",
  c!"IMPORT",
  c!"IN",
  c!"INCREMENT",
  c!"INDEX"]

/-- part 5 of the keyword list keywords.rs:78-955 -/
def kwNames5 : List (List Char) := [
  c!"INDEXES",
  c!"INET4",
  c!"INET6",
  c!"INFILE",
  c!"INITIAL_SIZE",
  c!"INNER",
  c!"INOUT",
  c!"INSENSITIVE",
  c!"INSERT",
  c!"INSERT_METHOD",
  c!"INSTALL",
  c!"INSTR",
  c!"INT",
  c!"INT1",
  c!"INT2",
  c!"INT2_OPS",
  c!"INT3",
  c!"INT4",
  c!"INT4_OPS",
  c!"INT8",
  c!"INT8_OPS",
  c!"INTEGER",
  c!"INTERSECT",
  c!"INTERSECTA",
  c!"INTERVAL",
  c!"INTO",
  c!"INVISIBLE",
  c!"INVOKER",
  c!"IO",
  c!"IO_THREAD",
  c!"IPC",
  c!"IS",
  c!"ISOLATION",
  c!"ISOPEN",
  c!"ISSUER",
  c!"ITERATE",
  c!"JOIN",
  c!"JSON",
  c!"JSON_ARRAY",
  c!"JSON_ARRAY_APPEND",
  c!"JSON_ARRAY_INSERT",
  c!"JSON_ARRAY_INTERSECT",
  c!"JSON_ARRAYAGG",
  c!"JSON_COMPACT",
  c!"JSON_CONTAINS",
  c!"JSON_CONTAINS_PATH",
  c!"JSON_DEPTH",
  c!"JSON_DETAILED",
  c!"JSON_EQUALS",
  c!"JSON_EXISTS",
  c!"JSON_EXTRACT",
  c!"JSON_INSERT",
  c!"JSON_KEYS",
  c!"JSON_LENGTH",
  c!"JSON_LOOSE",
  c!"JSON_MERGE",
  c!"JSON_MERGE_PATCH",
  c!"JSON_MERGE_PRESERVE",
  c!"JSON_NORMALIZE",
  c!"JSON_OBJECT"]

/-- part 6 of the keyword list keywords.rs:78-955 -/
def kwNames6 : List (List Char) := [
  c!"JSON_OBJECT_FILTER_KEYS",
  c!"JSON_OBJECT_TO_ARRAY",
  c!"JSON_OBJECTAGG",
  c!"JSON_OVERLAPS",
  c!"JSON_PRETTY",
  c!"JSON_QUERY",
  c!"JSON_QUOTE",
  c!"JSON_REMOVE",
  c!"JSON_REPLACE",
  c!"JSON_SCHEMA_VALID",
  c!"JSON_SEARCH",
  c!"JSON_SET",
  c!"JSON_TABLE",
  c!"JSON_TYPE",
  c!"JSON_UNQUOTE",
  c!"JSON_VALID",
  c!"JSON_VALUE",
  c!"KEY",
  c!"KEY_BLOCK_SIZE",
  c!"KEYS",
  c!"KILL",
  c!"LAG",
  c!"LANGUAGE",
  c!"LAST",
  c!"LAST_DAY",
  c!"LAST_VALUE",
  c!"LASTVAL",
  c!"LCASE",
  c!"LEAD",
  c!"LEADING",
  c!"LEAST",
  c!"LEAVE",
  c!"LEAVES",
  c!"LEFT",
  c!"LENGTH",
  c!"LENGTHB",
  c!"LESS",
  c!"LEVEL",
  c!"LIKE",
  c!"LIMIT",
  c!"LINEAR",
  c!"LINES",
  c!"LIST",
  c!"LN",
  c!"LOAD",
  c!"LOAD_FILE",
  c!"LOCAL",
  c!"LOCALTIME",
  c!"LOCALTIMESTAMP",
  c!"LOCATE",
  c!"LOCK",
  c!"LOCKED",
  c!"LOCKS",
  c!"LOG",
  c!"LOG10",
  c!"LOG2",
  c!"LOGFILE",
  c!"LOGS",
  c!"LONG",
  c!"LONGBLOB"]

/-- part 7 of the keyword list keywords.rs:78-955 -/
def kwNames7 : List (List Char) := [
  c!"LONGTEXT",
  c!"LOOP",
  c!"LOW_PRIORITY",
  c!"LOWER",
  c!"LPAD",
  c!"LTRIM",
  c!"MAKE_SET",
  c!"MAKEDATE",
  c!"MAKETIME",
  c!"MASTER",
  c!"MASTER_CONNECT_RETRY",
  c!"MASTER_DELAY",
  c!"MASTER_GTID_POS",
  c!"MASTER_HEARTBEAT_PERIOD",
  c!"MASTER_HOST",
  c!"MASTER_LOG_FILE",
  c!"MASTER_LOG_POS",
  c!"MASTER_PASSWORD",
  c!"MASTER_PORT",
  c!"MASTER_SERVER_ID",
  c!"MASTER_SSL",
  c!"MASTER_SSL_CA",
  c!"MASTER_SSL_CAPATH",
  c!"MASTER_SSL_CERT",
  c!"MASTER_SSL_CIPHER",
  c!"MASTER_SSL_CRL",
  c!"MASTER_SSL_CRLPATH",
  c!"MASTER_SSL_KEY",
  c!"MASTER_SSL_VERIFY_SERVER_CERT",
  c!"MASTER_USE_GTID",
  c!"MASTER_USER",
  c!"MATCH",
  c!"MAX",
  c!"MAX_CONNECTIONS_PER_HOUR",
  c!"MAX_QUERIES_PER_HOUR",
  c!"MAX_ROWS",
  c!"MAX_SIZE",
  c!"MAX_STATEMENT_TIME",
  c!"MAX_UPDATES_PER_HOUR",
  c!"MAX_USER_CONNECTIONS",
  c!"MAXVALUE",
  c!"MEDIUM",
  c!"MEDIUMBLOB",
  c!"MEDIUMINT",
  c!"MEDIUMTEXT",
  c!"MEMORY",
  c!"MERGE",
  c!"MESSAGE_TEXT",
  c!"MICROSECOND",
  c!"MID",
  c!"MIDDLEINT",
  c!"MIGRATE",
  c!"MIN",
  c!"MIN_ROWS",
  c!"MINUS",
  c!"MINUTE",
  c!"MINUTE_MICROSECOND",
  c!"MINUTE_SECOND",
  c!"MINVALUE",
  c!"MOD"]

/-- part 8 of the keyword list keywords.rs:78-955 -/
def kwNames8 : List (List Char) := [
  c!"MODE",
  c!"MODIFIES",
  c!"MODIFY",
  c!"MONITOR",
  c!"MONTH",
  c!"MONTHNAME",
  c!"MUTEX",
  c!"MYSQL",
  c!"MYSQL_ERRNO",
  c!"NAME",
  c!"NAMES",
  c!"NATIONAL",
  c!"NATURAL",
  c!"NATURAL_SORT_KEY",
  c!"NCHAR",
  c!"NESTED",
  c!"NEVER",
  c!"NEW",
  c!"NEXT",
  c!"NEXTVAL",
  c!"NO",
  c!"NO_WAIT",
  c!"NO_WRITE_TO_BINLOG",
  c!"NOCACHE",
  c!"NOCYCLE",
  c!"NODEGROUP",
  c!"NOMAXVALUE",
  c!"NOMINVALUE",
  c!"NONE",
  c!"NOT",
  c!"NOTFOUND",
  c!"NOTHING",
  c!"NOTICE",
  c!"NOW",
  c!"NOWAIT",
  c!"NULL",
  c!"NULLIF",
  c!"NUMBER",
  c!"NUMERIC",
  c!"NVARCHAR",
  c!"NVL",
  c!"NVL2",
  c!"OCT",
  c!"OCTET_LENGTH",
  c!"OF",
  c!"OFFSET",
  c!"OLD_PASSWORD",
  c!"ON",
  c!"ONE",
  c!"ONLINE",
  c!"ONLY",
  c!"OPEN",
  c!"OPTIMIZE",
  c!"OPTION",
  c!"OPTIONALLY",
  c!"OPTIONS",
  c!"OR",
  c!"ORD",
  c!"ORDER",
  c!"ORDINALITY"]

/-- part 9 of the keyword list keywords.rs:78-955 -/
def kwNames9 : List (List Char) := [
  c!"OTHERS",
  c!"OUT",
  c!"OUTER",
  c!"OUTFILE",
  c!"OVER",
  c!"OVERLAPS",
  c!"OWNER",
  c!"PACK_KEYS",
  c!"PACKAGE",
  c!"PAGE",
  c!"PAGE_CHECKSUM",
  c!"PARSE_VCOL_EXPR",
  c!"PARSER",
  c!"PARTIAL",
  c!"PARTITION",
  c!"PARTITIONING",
  c!"PARTITIONS",
  c!"PASSWORD",
  c!"PATH",
  c!"PERIOD",
  c!"PERIOD_ADD",
  c!"PERIOD_DIFF",
  c!"PERSISTENT",
  c!"PHASE",
  c!"PI",
  c!"PLPGSQL",
  c!"PLUGIN",
  c!"PLUGINS",
  c!"PORT",
  c!"PORTION",
  c!"POSITION",
  c!"POW",
  c!"POWER",
  c!"PRECEDES",
  c!"PRECEDING",
  c!"PRECISION",
  c!"PREPARE",
  c!"PRESERVE",
  c!"PREV",
  c!"PREVIOUS",
  c!"PRIMARY",
  c!"PRIVILEGES",
  c!"PROCEDURE",
  c!"PROCESS",
  c!"PROCESSLIST",
  c!"PROFILE",
  c!"PROFILES",
  c!"PROXY",
  c!"PURGE",
  c!"QUARTER",
  c!"QUERY",
  c!"QUICK",
  c!"QUOTE",
  c!"RADIANS",
  c!"RAISE",
  c!"RAND",
  c!"RANGE",
  c!"RAW",
  c!"READ",
  c!"READ_ONLY"]

/-- part 10 of the keyword list keywords.rs:78-955 -/
def kwNames10 : List (List Char) := [
  c!"READ_WRITE",
  c!"READS",
  c!"REAL",
  c!"REBUILD",
  c!"RECOVER",
  c!"RECURSIVE",
  c!"REDO_BUFFER_SIZE",
  c!"REDOFILE",
  c!"REDUNDANT",
  c!"REF_SYSTEM_ID",
  c!"REFERENCES",
  c!"REGEXP",
  c!"RELAY",
  c!"RELAY_LOG_FILE",
  c!"RELAY_LOG_POS",
  c!"RELAY_THREAD",
  c!"RELAYLOG",
  c!"RELEASE",
  c!"RELOAD",
  c!"REMOVE",
  c!"RENAME",
  c!"REORGANIZE",
  c!"REPAIR",
  c!"REPEAT",
  c!"REPEATABLE",
  c!"REPLACE",
  c!"REPLAY",
  c!"REPLICA",
  c!"REPLICA_POS",
  c!"REPLICAS",
  c!"REPLICATION",
  c!"REQUIRE",
  c!"RESET",
  c!"RESIGNAL",
  c!"RESTART",
  c!"RESTORE",
  c!"RESTRICT",
  c!"RESUME",
  c!"RETURN",
  c!"RETURNED_SQLSTATE",
  c!"RETURNING",
  c!"RETURNS",
  c!"REUSE",
  c!"REVERSE",
  c!"REVOKE",
  c!"RIGHT",
  c!"RLIKE",
  c!"ROLE",
  c!"ROLLBACK",
  c!"ROLLUP",
  c!"ROUND",
  c!"ROUTINE",
  c!"ROW",
  c!"ROW_COUNT",
  c!"ROW_FORMAT",
  c!"ROWCOUNT",
  c!"ROWNUM",
  c!"ROWS",
  c!"ROWTYPE",
  c!"RPAD"]

/-- part 11 of the keyword list keywords.rs:78-955 -/
def kwNames11 : List (List Char) := [
  c!"RTREE",
  c!"RTRIM",
  c!"SAVEPOINT",
  c!"SCHEDULE",
  c!"SCHEMA",
  c!"SCHEMA_NAME",
  c!"SCHEMAS",
  c!"SEC_TO_TIME",
  c!"SECOND",
  c!"SECOND_MICROSECOND",
  c!"SECURITY",
  c!"SELECT",
  c!"SENSITIVE",
  c!"SEPARATOR",
  c!"SEQUENCE",
  c!"SERIAL",
  c!"SERIALIZABLE",
  c!"SERVER",
  c!"SESSION",
  c!"SET",
  c!"SETVAL",
  c!"SFORMAT",
  c!"SHARE",
  c!"SHOW",
  c!"SHUTDOWN",
  c!"SIGN",
  c!"SIGNAL",
  c!"SIGNED",
  c!"SIMPLE",
  c!"SIN",
  c!"SKIP",
  c!"SLAVE",
  c!"SLAVE_POS",
  c!"SLAVES",
  c!"SLOW",
  c!"SMALLINT",
  c!"SNAPSHOT",
  c!"SOCKET",
  c!"SOFT",
  c!"SOME",
  c!"SONAME",
  c!"SOUNDEX",
  c!"SOUNDS",
  c!"SOURCE",
  c!"SPACE",
  c!"SPATIAL",
  c!"SPECIFIC",
  c!"SQL",
  c!"SQL_BIG_RESULT",
  c!"SQL_BUFFER_RESULT",
  c!"SQL_CACHE",
  c!"SQL_CALC_FOUND_ROWS",
  c!"SQL_NO_CACHE",
  c!"SQL_SMALL_RESULT",
  c!"SQL_THREAD",
  c!"SQL_TSI_DAY",
  c!"SQL_TSI_HOUR",
  c!"SQL_TSI_MINUTE",
  c!"SQL_TSI_MONTH",
  c!"SQL_TSI_QUARTER"]

/-- part 12 of the keyword list keywords.rs:78-955 -/
def kwNames12 : List (List Char) := [
  c!"SQL_TSI_SECOND",
  c!"SQL_TSI_WEEK",
  c!"SQL_TSI_YEAR",
  c!"SQLEXCEPTION",
  c!"SQLSTATE",
  c!"SQLWARNING",
  c!"SQRT",
  c!"SSL",
  c!"STAGE",
  c!"START",
  c!"STARTING",
  c!"STARTS",
  c!"STARTS_WITH",
  c!"STATEMENT",
  c!"STATS_AUTO_RECALC",
  c!"STATS_PERSISTENT",
  c!"STATS_SAMPLE_PAGES",
  c!"STATUS",
  c!"STDIN",
  c!"STOP",
  c!"STORAGE",
  c!"STORED",
  c!"STR_TO_DATE",
  c!"STRAIGHT_JOIN",
  c!"STRCMP",
  c!"STRFTIME",
  c!"STRICT",
  c!"STRING",
  c!"SUBCLASS_ORIGIN",
  c!"SUBDATE",
  c!"SUBJECT",
  c!"SUBPARTITION",
  c!"SUBPARTITIONS",
  c!"SUBSTR",
  c!"SUBSTRING",
  c!"SUBSTRING_INDEX",
  c!"SUBTIME",
  c!"SUM",
  c!"SUPER",
  c!"SUSPEND",
  c!"SWAPS",
  c!"SWITCHES",
  c!"SYSDATE",
  c!"SYSTEM",
  c!"SYSTEM_TIME",
  c!"TABLE",
  c!"TABLE_CHECKSUM",
  c!"TABLE_NAME",
  c!"TABLES",
  c!"TABLESPACE",
  c!"TAN",
  c!"TEMPORARY",
  c!"TEMPTABLE",
  c!"TERMINATED",
  c!"TEXT",
  c!"TEXT_PATTERN_OPS",
  c!"THAN",
  c!"THEN",
  c!"THREADS",
  c!"TIES"]

/-- part 13 of the keyword list keywords.rs:78-955 -/
def kwNames13 : List (List Char) := [
  c!"TIME",
  c!"TIME_FORMAT",
  c!"TIME_TO_SEC",
  c!"TIME_ZONE",
  c!"TIMEDIFF",
  c!"TIMESTAMP",
  c!"TIMESTAMPADD",
  c!"TIMESTAMPDIFF",
  c!"TIMESTAMPTZ",
  c!"TINYBLOB",
  c!"TINYINT",
  c!"TINYTEXT",
  c!"TO",
  c!"TO_BASE64",
  c!"TO_CHAR",
  c!"TO_DAYS",
  c!"TO_SECONDS",
  c!"TRAILING",
  c!"TRANSACTION",
  c!"TRANSACTIONAL",
  c!"TRIGGER",
  c!"TRIGGERS",
  c!"TRUE",
  c!"TRUNCATE",
  c!"TYPE",
  c!"TYPES",
  c!"UCASE",
  c!"UNBOUNDED",
  c!"UNCOMMITTED",
  c!"UNCOMPRESSED_LENGTH",
  c!"UNDEFINED",
  c!"UNDO",
  c!"UNDO_BUFFER_SIZE",
  c!"UNDOFILE",
  c!"UNHEX",
  c!"UNICODE",
  c!"UNINSTALL",
  c!"UNION",
  c!"UNIQUE",
  c!"UNIX_TIMESTAMP",
  c!"UNKNOWN",
  c!"UNLOCK",
  c!"UNSIGNED",
  c!"UNTIL",
  c!"UPDATE",
  c!"UPDATEXML",
  c!"UPGRADE",
  c!"UPPER",
  c!"USAGE",
  c!"USE",
  c!"USE_FRM",
  c!"USER",
  c!"USER_RESOURCES",
  c!"USING",
  c!"UTC_DATE",
  c!"UTC_TIME",
  c!"UTC_TIMESTAMP",
  c!"VALUE",
  c!"VALUES",
  c!"VARBINARY"]

/-- part 14 of the keyword list keywords.rs:78-955 -/
def kwNames14 : List (List Char) := [
  c!"VARCHAR",
  c!"VARCHAR_PATTERN_OPS",
  c!"VARCHAR2",
  c!"VARCHARACTER",
  c!"VARIABLES",
  c!"VARYING",
  c!"VERSIONING",
  c!"VIA",
  c!"VIEW",
  c!"VIRTUAL",
  c!"VISIBLE",
  c!"WAIT",
  c!"WARNINGS",
  c!"WEEK",
  c!"WEEKDAY",
  c!"WEEKOFYEAR",
  c!"WEIGHT_STRING",
  c!"WHEN",
  c!"WHERE",
  c!"WHILE",
  c!"WINDOW",
  c!"WITH",
  c!"WITHIN",
  c!"WITHOUT",
  c!"WORK",
  c!"WRAPPER",
  c!"WRITE",
  c!"X509",
  c!"XA",
  c!"XML",
  c!"XOR",
  c!"YEAR",
  c!"YEAR_MONTH",
  c!"YEARWEEK",
  c!"ZEROFILL",
  c!"ZONE"]

/-- keywords.rs:78-955: the words listed in `keywords!`, in order. -/
def kwNames : List (List Char) :=
  kwNames0 ++ (kwNames1 ++ (kwNames2 ++ (kwNames3 ++ (kwNames4 ++ (kwNames5 ++ (kwNames6 ++ (kwNames7 ++ (kwNames8 ++ (kwNames9 ++ (kwNames10 ++ (kwNames11 ++ (kwNames12 ++ (kwNames13 ++ (kwNames14))))))))))))))

/-- keywords.rs:957-1209: the words listed in `reserved!`. -/
def reservedKws : List Keyword := [
  .ACCESSIBLE, .ADD, .ALL, .ALTER, .ANALYZE, .AND, .AS, .ASC,
  .ASENSITIVE, .BEFORE, .BETWEEN, .BIGINT, .BINARY, .BLOB, .BOTH, .BY,
  .CALL, .CASCADE, .CASE, .CHANGE, .CHAR, .CHARACTER, .CHECK, .COLLATE,
  .COLUMN, .COMMENT, .CONDITION, .CONSTRAINT, .CONTINUE, .CONVERT, .CREATE, .CROSS,
  .CURRENT_DATE, .CURRENT_ROLE, .CURRENT_TIME, .CURRENT_TIMESTAMP, .CURRENT_USER, .CURSOR, .DATABASE, .DATABASES,
  .DAY_HOUR, .DAY_MICROSECOND, .DAY_MINUTE, .DAY_SECOND, .DEC, .DECIMAL, .DECLARE, .DEFAULT,
  .DELAYED, .DELETE, .DELETE_DOMAIN_ID, .DESC, .DESCRIBE, .DETERMINISTIC, .DISTINCT, .DISTINCTROW,
  .DIV, .DO_DOMAIN_IDS, .DOUBLE, .DROP, .DUAL, .EACH, .ELSE, .ELSEIF,
  .ENCLOSED, .END, .ESCAPED, .EXCEPT, .EXISTS, .EXIT, .EXPLAIN, .FALSE,
  .FETCH, .FLOAT, .FLOAT4, .FLOAT8, .FOR, .FORCE, .FOREIGN, .FROM,
  .FULLTEXT, .GENERAL, .GRANT, .GROUP, .HAVING, .HIGH_PRIORITY, .HOUR_MICROSECOND, .HOUR_MINUTE,
  .HOUR_SECOND, .IF, .IGNORE, .IGNORE_DOMAIN_IDS, .IGNORE_SERVER_IDS, .IN, .INDEX, .INFILE,
  .INNER, .INOUT, .INSENSITIVE, .INSERT, .INT, .INT1, .INT2, .INT3,
  .INT4, .INT8, .INTEGER, .INTERSECTA, .INTERVAL, .INTO, .IS, .ITERATE,
  .JOIN, .KEY, .KEYS, .KILL, .LEADING, .LEAVE, .LEFT, .LIKE,
  .LIMIT, .LINEAR, .LINES, .LOAD, .LOCALTIME, .LOCALTIMESTAMP, .LOCK, .LONG,
  .LONGBLOB, .LONGTEXT, .LOOP, .LOW_PRIORITY, .MASTER_HEARTBEAT_PERIOD, .MASTER_SSL_VERIFY_SERVER_CERT, .MATCH, .MAXVALUE,
  .MEDIUMBLOB, .MEDIUMINT, .MEDIUMTEXT, .MIDDLEINT, .MINUTE_MICROSECOND, .MINUTE_SECOND, .MOD, .MODIFIES,
  .NATURAL, .NO_WRITE_TO_BINLOG, .NOT, .NULL, .NUMERIC, .OFFSET, .ON, .OPTIMIZE,
  .OPTION, .OPTIONALLY, .OR, .ORDER, .OUT, .OUTER, .OUTFILE, .OVER,
  .PAGE_CHECKSUM, .PARSE_VCOL_EXPR, .PARTITION, .POSITION, .PRECISION, .PRIMARY, .PROCEDURE, .PURGE,
  .RANGE, .READ, .READ_WRITE, .READS, .REAL, .RECURSIVE, .REF_SYSTEM_ID, .REFERENCES,
  .REGEXP, .RENAME, .REPEAT, .REPLACE, .REQUIRE, .RESIGNAL, .RESTRICT, .RETURN,
  .RETURNING, .REVOKE, .RIGHT, .RLIKE, .ROWS, .SCHEMA, .SCHEMAS, .SECOND_MICROSECOND,
  .SELECT, .SENSITIVE, .SEPARATOR, .SET, .SHOW, .SIGNAL, .SLOW, .SMALLINT,
  .SPATIAL, .SPECIFIC, .SQL, .SQL_BIG_RESULT, .SQL_CALC_FOUND_ROWS, .SQL_SMALL_RESULT, .SQLEXCEPTION, .SQLSTATE,
  .SQLWARNING, .SSL, .STARTING, .STATS_AUTO_RECALC, .STATS_PERSISTENT, .STATS_SAMPLE_PAGES, .STRAIGHT_JOIN, .TABLE,
  .TERMINATED, .THEN, .TINYBLOB, .TINYINT, .TINYTEXT, .TO, .TRAILING, .TRIGGER,
  .TRUE, .UNDO, .UNION, .UNIQUE, .UNLOCK, .UNSIGNED, .UPDATE, .USAGE,
  .USE, .USING, .UTC_DATE, .UTC_TIME, .UTC_TIMESTAMP, .VALUES, .VARBINARY, .VARCHAR,
  .VARCHARACTER, .VARYING, .WHEN, .WHERE, .WHILE, .WINDOW, .WITH, .WRITE,
  .XOR, .YEAR_MONTH, .ZEROFILL]

/-- keywords.rs:1211-1224: the words listed in `expr_ident!`. -/
def exprIdentKws : List Keyword := [
  .CURRENT_DATE, .CURRENT_TIME, .CURRENT_TIMESTAMP, .IF, .LOCALTIME, .LOCALTIMESTAMP, .REPLACE, .RIGHT,
  .UTC_DATE, .UTC_TIME, .UTC_TIMESTAMP, .VALUES]

end SqlParse
