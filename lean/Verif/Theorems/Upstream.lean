import Verif.Theorems.Issues
/-!
The unit tests and the documentation tests of the crate, run on the model by the kernel.  Generated by tools/gen_upstream.py.
These are tests of the model (it behaves as the authors of the crate say the code behaves), not proofs of properties.
Each says what the test of the crate asserts: no issue, and the kind of the (last) statement, or the function and the
number of its arguments.
-/
namespace SqlParse

/-- `Issues::is_ok` of the list (issue.rs:135-137), and the kind of the last statement. -/
def upstreamOk (k : Option Kind) (l : List SAst) (is : List Issue) : Bool :=
  is.isEmpty && !l.isEmpty &&
    (k.isNone || (match l.getLast?.map SAst.ast with | some (.node g _) => some g | _ => none) == k)

/-- Run `parse_expression(parser, false)` on a text (MariaDB, as in the tests). -/
def upstreamExpr (s : List Char) (f : Ast → Bool) : Bool :=
  match St.new true s ⟨s, []⟩ {} with
  | .ok _ st => (match (Prog.call (.expression false)).run 60 st with | .ok a _ => f a | _ => false)
  | _ => false

/-- A call of the function with this number of arguments. -/
def upstreamCall (f : Kind) (n : Nat) : Ast → Bool
  | .node .Function (.node g _ :: .list l :: _) => g == f && l.length == n
  | _ => false

/-- An expression of this kind. -/
def upstreamKind (f : Kind) : Ast → Bool
  | .node g _ => g == f
  | _ => false

/-- An identifier with one part. -/
def upstreamIdent (v : List Char) : Ast → Bool
  | .node .Identifier [.list [.ident w _]] => v == w
  | _ => false

/-- alter.rs:607 -/
example : (Api.many.run 100 true c!"ALTER TABLE `t1`\n    MODIFY `id` int(11) NOT NULL AUTO_INCREMENT,\n    ADD CONSTRAINT `t1_t2` FOREIGN KEY (`two`) REFERENCES `t2` (`id`);" ⟨c!"ALTER TABLE `t1`\n    MODIFY `id` int(11) NOT NULL AUTO_INCREMENT,\n    ADD CONSTRAINT `t1_t2` FOREIGN KEY (`two`) REFERENCES `t2` (`id`);", []⟩ { dialect := .mariaDB }).test (fun a is => upstreamOk (some .AlterTable) a is) = true := by decide +kernel
/-- alter.rs:607 -/
example : (Api.many.run 100 true c!"ALTER TABLE t1\n    ALTER COLUMN id DROP NOT NULL,\n    ALTER COLUMN id SET NOT NULL,\n    ALTER COLUMN id SET DEFAULT 47,\n    ALTER COLUMN id DROP DEFAULT,\n    ALTER COLUMN id TYPE int;" ⟨c!"ALTER TABLE t1\n    ALTER COLUMN id DROP NOT NULL,\n    ALTER COLUMN id SET NOT NULL,\n    ALTER COLUMN id SET DEFAULT 47,\n    ALTER COLUMN id DROP DEFAULT,\n    ALTER COLUMN id TYPE int;", []⟩ { dialect := .postgreSQL }).test (fun a is => upstreamOk (some .AlterTable) a is) = true := by decide +kernel
/-- create.rs:251 -/
example : (Api.many.run 100 true c!"CREATE TABLE `parts` (\n        `id` int(11) NOT NULL COMMENT 'THIS IS THE ID FIELD',\n        `hash` varchar(64) COLLATE utf8_bin NOT NULL,\n        `destination` varchar(64) COLLATE utf8_bin NOT NULL,\n        `part` varchar(64) COLLATE utf8_bin NOT NULL,\n        `success` tinyint(1) NOT NULL\n    ) ENGINE=InnoDB DEFAULT CHARSET=utf8 COLLATE=utf8_bin;" ⟨c!"CREATE TABLE `parts` (\n        `id` int(11) NOT NULL COMMENT 'THIS IS THE ID FIELD',\n        `hash` varchar(64) COLLATE utf8_bin NOT NULL,\n        `destination` varchar(64) COLLATE utf8_bin NOT NULL,\n        `part` varchar(64) COLLATE utf8_bin NOT NULL,\n        `success` tinyint(1) NOT NULL\n    ) ENGINE=InnoDB DEFAULT CHARSET=utf8 COLLATE=utf8_bin;", []⟩ { dialect := .mariaDB }).test (fun a is => upstreamOk (some .CreateTable) a is) = true := by decide +kernel
/-- create.rs:306 -/
example : (Api.many.run 100 true c!"CREATE ALGORITHM=UNDEFINED DEFINER=`phpmyadmin`@`localhost` SQL SECURITY DEFINER\n   VIEW `v1`\n   AS SELECT\n        `t1`.`id` AS `id`,\n        `t1`.`c1` AS `c1`,\n        (SELECT `t2`.`c2` FROM `t2` WHERE `t2`.`id` = `t1`.`c3`) AS `c2`\n        FROM `t1` WHERE `t1`.`deleted` IS NULL;" ⟨c!"CREATE ALGORITHM=UNDEFINED DEFINER=`phpmyadmin`@`localhost` SQL SECURITY DEFINER\n   VIEW `v1`\n   AS SELECT\n        `t1`.`id` AS `id`,\n        `t1`.`c1` AS `c1`,\n        (SELECT `t2`.`c2` FROM `t2` WHERE `t2`.`id` = `t1`.`c3`) AS `c2`\n        FROM `t1` WHERE `t1`.`deleted` IS NULL;", []⟩ { dialect := .mariaDB }).test (fun a is => upstreamOk (some .CreateView) a is) = true := by decide +kernel
/-- create.rs:760 -/
example : (Api.many.run 100 true c!"DROP TRIGGER IF EXISTS `my_trigger`;\nDELIMITER $$\nCREATE TRIGGER `my_trigger` AFTER DELETE ON `things` FOR EACH ROW BEGIN\n    IF OLD.`value` IS NOT NULL THEN\n        UPDATE `t2` AS `j`\n            SET\n            `j`.`total_items` = `total_items` - 1\n            WHERE `j`.`id`=OLD.`value` AND NOT `j`.`frozen`;\n        END IF;\n    INSERT INTO `updated_things` (`thing`) VALUES (OLD.`id`);\nEND\n$$\nDELIMITER ;" ⟨c!"DROP TRIGGER IF EXISTS `my_trigger`;\nDELIMITER $$\nCREATE TRIGGER `my_trigger` AFTER DELETE ON `things` FOR EACH ROW BEGIN\n    IF OLD.`value` IS NOT NULL THEN\n        UPDATE `t2` AS `j`\n            SET\n            `j`.`total_items` = `total_items` - 1\n            WHERE `j`.`id`=OLD.`value` AND NOT `j`.`frozen`;\n        END IF;\n    INSERT INTO `updated_things` (`thing`) VALUES (OLD.`id`);\nEND\n$$\nDELIMITER ;", []⟩ { dialect := .mariaDB }).test (fun a is => upstreamOk (some .CreateTrigger) a is) = true := by decide +kernel
/-- delete.rs:44 -/
example : (Api.many.run 100 true c!"DELETE FROM t1 WHERE c1 IN (SELECT b.c1 FROM t1 b WHERE b.c2=0);" ⟨c!"DELETE FROM t1 WHERE c1 IN (SELECT b.c1 FROM t1 b WHERE b.c2=0);", []⟩ { dialect := .mariaDB }).test (fun a is => upstreamOk (some .Delete) a is) = true := by decide +kernel
/-- delete.rs:44 -/
example : (Api.many.run 100 true c!"DELETE `t1` FROM `t1` LEFT JOIN `t2` ON `t1`.`t2_id`=`t2`.`id` WHERE `t2`.`key`='my_key';" ⟨c!"DELETE `t1` FROM `t1` LEFT JOIN `t2` ON `t1`.`t2_id`=`t2`.`id` WHERE `t2`.`key`='my_key';", []⟩ { dialect := .mariaDB }).test (fun a is => upstreamOk none a is) = true := by decide +kernel
/-- drop.rs:24 -/
example : (Api.many.run 100 true c!"DROP TABLE `Employees`, `Customers`;" ⟨c!"DROP TABLE `Employees`, `Customers`;", []⟩ { dialect := .mariaDB }).test (fun a is => upstreamOk (some .DropTable) a is) = true := by decide +kernel
/-- drop.rs:68 -/
example : (Api.many.run 100 true c!"DROP VIEW `Employees`, `Customers`;" ⟨c!"DROP VIEW `Employees`, `Customers`;", []⟩ { dialect := .mariaDB }).test (fun a is => upstreamOk (some .DropView) a is) = true := by decide +kernel
/-- drop.rs:109 -/
example : (Api.many.run 100 true c!"DROP DATABASE mydb;" ⟨c!"DROP DATABASE mydb;", []⟩ { dialect := .mariaDB }).test (fun a is => upstreamOk (some .DropDatabase) a is) = true := by decide +kernel
/-- drop.rs:148 -/
example : (Api.many.run 100 true c!"DROP EVENT myevent;" ⟨c!"DROP EVENT myevent;", []⟩ { dialect := .mariaDB }).test (fun a is => upstreamOk (some .DropEvent) a is) = true := by decide +kernel
/-- drop.rs:186 -/
example : (Api.many.run 100 true c!"DROP FUNCTION myfunc;" ⟨c!"DROP FUNCTION myfunc;", []⟩ { dialect := .mariaDB }).test (fun a is => upstreamOk (some .DropFunction) a is) = true := by decide +kernel
/-- drop.rs:224 -/
example : (Api.many.run 100 true c!"DROP PROCEDURE myproc;" ⟨c!"DROP PROCEDURE myproc;", []⟩ { dialect := .mariaDB }).test (fun a is => upstreamOk (some .DropProcedure) a is) = true := by decide +kernel
/-- drop.rs:262 -/
example : (Api.many.run 100 true c!"DROP SERVER myserver;" ⟨c!"DROP SERVER myserver;", []⟩ { dialect := .mariaDB }).test (fun a is => upstreamOk (some .DropServer) a is) = true := by decide +kernel
/-- drop.rs:301 -/
example : (Api.many.run 100 true c!"DROP TRIGGER IF EXISTS `foo`.`mytrigger`;" ⟨c!"DROP TRIGGER IF EXISTS `foo`.`mytrigger`;", []⟩ { dialect := .mariaDB }).test (fun a is => upstreamOk (some .DropTrigger) a is) = true := by decide +kernel
/-- drop.rs:536 -/
example : (Api.many.run 100 true c!"DROP INDEX IF EXISTS `myindex` ON `bar`;" ⟨c!"DROP INDEX IF EXISTS `myindex` ON `bar`;", []⟩ { dialect := .mariaDB }).test (fun a is => upstreamOk (some .DropIndex) a is) = true := by decide +kernel
/-- drop.rs:554 -/
example : (Api.many.run 100 true c!"DROP INDEX IF EXISTS \"myindex\";" ⟨c!"DROP INDEX IF EXISTS \"myindex\";", []⟩ { dialect := .postgreSQL }).test (fun a is => upstreamOk (some .DropIndex) a is) = true := by decide +kernel
/-- insert_replace.rs:163 -/
example : (Api.one.run 100 true c!"INSERT INTO person (first_name, last_name) VALUES ('John', 'Doe')" ⟨c!"INSERT INTO person (first_name, last_name) VALUES ('John', 'Doe')", []⟩ { dialect := .mariaDB }).test (fun a is => upstreamOk (some .InsertReplace) a.toList is) = true := by decide +kernel
/-- insert_replace.rs:163 -/
example : (Api.one.run 100 true c!"INSERT INTO contractor SELECT * FROM person WHERE status = 'c'" ⟨c!"INSERT INTO contractor SELECT * FROM person WHERE status = 'c'", []⟩ { dialect := .mariaDB }).test (fun a is => upstreamOk none a.toList is) = true := by decide +kernel
/-- insert_replace.rs:163 -/
example : (Api.one.run 100 true c!"INSERT INTO account (`key`, `value`) VALUES ('foo', 42)\n            ON DUPLICATE KEY UPDATE `value`=`value`+42" ⟨c!"INSERT INTO account (`key`, `value`) VALUES ('foo', 42)\n            ON DUPLICATE KEY UPDATE `value`=`value`+42", []⟩ { dialect := .mariaDB }).test (fun a is => upstreamOk none a.toList is) = true := by decide +kernel
/-- insert_replace.rs:163 -/
example : (Api.one.run 100 true c!"REPLACE INTO t2 VALUES (1,'Leopard'),(2,'Dog')" ⟨c!"REPLACE INTO t2 VALUES (1,'Leopard'),(2,'Dog')", []⟩ { dialect := .mariaDB }).test (fun a is => upstreamOk (some .InsertReplace) a.toList is) = true := by decide +kernel
/-- insert_replace.rs:207 -/
example : (Api.one.run 100 true c!"INSERT INTO contractor SELECT * FROM person WHERE status = $1 ON CONFLICT (name) DO NOTHING" ⟨c!"INSERT INTO contractor SELECT * FROM person WHERE status = $1 ON CONFLICT (name) DO NOTHING", []⟩ { dialect := .postgreSQL, arguments := .dollar }).test (fun a is => upstreamOk none a.toList is) = true := by decide +kernel
/-- lib.rs:267 -/
example : (Api.one.run 100 true c!"ALTER TABLE `test` ADD COLUMN `test1` VARCHAR (128) NULL DEFAULT NULL" ⟨c!"ALTER TABLE `test` ADD COLUMN `test1` VARCHAR (128) NULL DEFAULT NULL", []⟩ { dialect := .mariaDB, arguments := .questionMark }).test (fun a is => upstreamOk none a.toList is) = true := by decide +kernel
/-- lib.rs:280 -/
example : (Api.one.run 100 true c!"DROP TABLE IF EXISTS `test_schema`.`test`" ⟨c!"DROP TABLE IF EXISTS `test_schema`.`test`", []⟩ { dialect := .mariaDB, arguments := .questionMark }).test (fun a is => upstreamOk none a.toList is) = true := by decide +kernel
/-- lib.rs:293 -/
example : (Api.one.run 100 true c!"CREATE INDEX `idx_test` ON  test_schema.test(`col_test`)" ⟨c!"CREATE INDEX `idx_test` ON  test_schema.test(`col_test`)", []⟩ { dialect := .mariaDB, arguments := .questionMark }).test (fun a is => upstreamOk none a.toList is) = true := by decide +kernel
/-- lib.rs:306 -/
example : (Api.one.run 100 true c!"CREATE INDEX idx_test ON test(path text_pattern_ops)" ⟨c!"CREATE INDEX idx_test ON test(path text_pattern_ops)", []⟩ { dialect := .postgreSQL, arguments := .dollar }).test (fun a is => upstreamOk none a.toList is) = true := by decide +kernel
/-- lib.rs:319 -/
example : (Api.one.run 100 true c!"DROP INDEX `idx_test` ON  test_schema.test" ⟨c!"DROP INDEX `idx_test` ON  test_schema.test", []⟩ { dialect := .mariaDB, arguments := .questionMark }).test (fun a is => upstreamOk none a.toList is) = true := by decide +kernel
/-- lib.rs:333 -/
example : (Api.one.run 100 true c!"CREATE OR REPLACE VIEW `test_schema`.`view_test` AS SELECT * FROM `test_schema`.`test`" ⟨c!"CREATE OR REPLACE VIEW `test_schema`.`view_test` AS SELECT * FROM `test_schema`.`test`", []⟩ { dialect := .mariaDB, arguments := .questionMark }).test (fun a is => upstreamOk none a.toList is) = true := by decide +kernel
/-- lib.rs:348 -/
example : (Api.one.run 100 true c!"DROP VIEW `test_schema`.`view_test`" ⟨c!"DROP VIEW `test_schema`.`view_test`", []⟩ { dialect := .mariaDB, arguments := .questionMark }).test (fun a is => upstreamOk none a.toList is) = true := by decide +kernel
/-- lib.rs:362 -/
example : (Api.one.run 100 true c!"TRUNCATE TABLE `test_schema`.`table_test`" ⟨c!"TRUNCATE TABLE `test_schema`.`table_test`", []⟩ { dialect := .mariaDB, arguments := .questionMark }).test (fun a is => upstreamOk none a.toList is) = true := by decide +kernel
/-- lib.rs:376 -/
example : (Api.one.run 100 true c!"RENAME TABLE `test_schema`.`table_test` To `test_schema`.`table_new_test`" ⟨c!"RENAME TABLE `test_schema`.`table_test` To `test_schema`.`table_new_test`", []⟩ { dialect := .mariaDB, arguments := .questionMark }).test (fun a is => upstreamOk none a.toList is) = true := by decide +kernel
/-- lib.rs:390 -/
example : (Api.one.run 100 true c!"\n        WITH monkeys AS (DELETE FROM thing RETURNING id),\n        baz AS (SELECT id FROM cats WHERE comp IN (monkeys))\n        DELETE FROM dogs WHERE cat IN (cats)" ⟨c!"\n        WITH monkeys AS (DELETE FROM thing RETURNING id),\n        baz AS (SELECT id FROM cats WHERE comp IN (monkeys))\n        DELETE FROM dogs WHERE cat IN (cats)", []⟩ { dialect := .postgreSQL, arguments := .questionMark }).test (fun a is => upstreamOk none a.toList is) = true := by decide +kernel
/-- lib.rs:407 -/
example : (Api.one.run 100 true c!"SELECT `a` FROM `b` FORCE INDEX FOR GROUP BY (`b`, `c`)" ⟨c!"SELECT `a` FROM `b` FORCE INDEX FOR GROUP BY (`b`, `c`)", []⟩ { dialect := .mariaDB, arguments := .questionMark }).test (fun a is => upstreamOk none a.toList is) = true := by decide +kernel
/-- rename.rs:28 -/
example : (Api.many.run 100 true c!"RENAME TABLE `t1` TO `t2`;" ⟨c!"RENAME TABLE `t1` TO `t2`;", []⟩ { dialect := .mariaDB }).test (fun a is => upstreamOk (some .RenameTable) a is) = true := by decide +kernel
/-- select.rs:574 -/
example : (Api.one.run 100 true c!"SELECT f1,f2 FROM t1 WHERE f3<=10 AND f4='y'" ⟨c!"SELECT f1,f2 FROM t1 WHERE f3<=10 AND f4='y'", []⟩ { dialect := .mariaDB }).test (fun a is => upstreamOk (some .Select) a.toList is) = true := by decide +kernel
/-- select.rs:574 -/
example : (Api.one.run 100 true c!"SELECT CAST(NULL AS CHAR)" ⟨c!"SELECT CAST(NULL AS CHAR)", []⟩ { dialect := .mariaDB }).test (fun a is => upstreamOk (some .Select) a.toList is) = true := by decide +kernel
/-- select.rs:574 -/
example : (Api.one.run 100 true c!"SELECT * FROM t1, d2.t2 FOR SHARE OF t1, t2 NOWAIT" ⟨c!"SELECT * FROM t1, d2.t2 FOR SHARE OF t1, t2 NOWAIT", []⟩ { dialect := .mariaDB }).test (fun a is => upstreamOk (some .Select) a.toList is) = true := by decide +kernel
/-- truncate.rs:9 -/
example : (Api.many.run 100 true c!"TRUNCATE TABLE `t1`;" ⟨c!"TRUNCATE TABLE `t1`;", []⟩ { dialect := .mariaDB }).test (fun a is => upstreamOk (some .TruncateTable) a is) = true := by decide +kernel
/-- update.rs:44 -/
example : (Api.one.run 100 true c!"UPDATE tab1, tab2 SET tab1.column1 = value1, tab1.column2 = value2 WHERE tab1.id = tab2.id" ⟨c!"UPDATE tab1, tab2 SET tab1.column1 = value1, tab1.column2 = value2 WHERE tab1.id = tab2.id", []⟩ { dialect := .mariaDB }).test (fun a is => upstreamOk (some .Update) a.toList is) = true := by decide +kernel
/-- with_query.rs:37 -/
example : (Api.many.run 100 true c!"WITH ids AS (DELETE FROM things WHERE number=42) INSERT INTO deleted (id) SELECT id FROM ids;" ⟨c!"WITH ids AS (DELETE FROM things WHERE number=42) INSERT INTO deleted (id) SELECT id FROM ids;", []⟩ { dialect := .postgreSQL }).test (fun a is => upstreamOk (some .WithQuery) a is) = true := by decide +kernel
/-- expression.rs:1749 -/
example : upstreamExpr c!"ADD_MONTHS('2012-01-31', 2)" (upstreamCall .Function_AddMonths 2) = true := by decide +kernel
/-- expression.rs:1750 -/
example : upstreamExpr c!"ADDTIME('2007-12-31 23:59:59.999999', '1 1:1:1.000002')" (upstreamCall .Function_AddTime 2) = true := by decide +kernel
/-- expression.rs:1755 -/
example : upstreamExpr c!"DATE_ADD('2008-01-02', INTERVAL 31 DAY)" (upstreamCall .Function_AddDate 2) = true := by decide +kernel
/-- expression.rs:1760 -/
example : upstreamExpr c!"ADDDATE('2008-01-02', INTERVAL 31 DAY)" (upstreamCall .Function_AddDate 2) = true := by decide +kernel
/-- expression.rs:1765 -/
example : upstreamExpr c!"ADDDATE('2008-01-02', 31)" (upstreamCall .Function_AddDate 2) = true := by decide +kernel
/-- expression.rs:1766 -/
example : upstreamExpr c!"CONVERT_TZ('2016-01-01 12:00:00','+00:00','+10:00')" (upstreamCall .Function_ConvertTz 3) = true := by decide +kernel
/-- expression.rs:1771 -/
example : upstreamExpr c!"CURDATE()" (upstreamCall .Function_CurDate 0) = true := by decide +kernel
/-- expression.rs:1772 -/
example : upstreamExpr c!"CURRENT_DATE" (upstreamCall .Function_CurDate 0) = true := by decide +kernel
/-- expression.rs:1773 -/
example : upstreamExpr c!"CURRENT_DATE()" (upstreamCall .Function_CurDate 0) = true := by decide +kernel
/-- expression.rs:1774 -/
example : upstreamExpr c!"CURRENT_TIME" (upstreamCall .Function_CurTime 0) = true := by decide +kernel
/-- expression.rs:1775 -/
example : upstreamExpr c!"CURRENT_TIME()" (upstreamCall .Function_CurTime 0) = true := by decide +kernel
/-- expression.rs:1776 -/
example : upstreamExpr c!"CURTIME()" (upstreamCall .Function_CurTime 0) = true := by decide +kernel
/-- expression.rs:1777 -/
example : upstreamExpr c!"CURTIME(2)" (upstreamCall .Function_CurTime 1) = true := by decide +kernel
/-- expression.rs:1778 -/
example : upstreamExpr c!"CURRENT_DATE" (upstreamCall .Function_CurDate 0) = true := by decide +kernel
/-- expression.rs:1779 -/
example : upstreamExpr c!"CURRENT_DATE()" (upstreamCall .Function_CurDate 0) = true := by decide +kernel
/-- expression.rs:1780 -/
example : upstreamExpr c!"CURDATE()" (upstreamCall .Function_CurDate 0) = true := by decide +kernel
/-- expression.rs:1781 -/
example : upstreamExpr c!"CURRENT_TIMESTAMP" (upstreamCall .Function_CurrentTimestamp 0) = true := by decide +kernel
/-- expression.rs:1782 -/
example : upstreamExpr c!"CURRENT_TIMESTAMP()" (upstreamCall .Function_CurrentTimestamp 0) = true := by decide +kernel
/-- expression.rs:1783 -/
example : upstreamExpr c!"CURRENT_TIMESTAMP(10)" (upstreamCall .Function_CurrentTimestamp 1) = true := by decide +kernel
/-- expression.rs:1784 -/
example : upstreamExpr c!"LOCALTIME" (upstreamCall .Function_Now 0) = true := by decide +kernel
/-- expression.rs:1785 -/
example : upstreamExpr c!"LOCALTIME()" (upstreamCall .Function_Now 0) = true := by decide +kernel
/-- expression.rs:1786 -/
example : upstreamExpr c!"LOCALTIME(10)" (upstreamCall .Function_Now 1) = true := by decide +kernel
/-- expression.rs:1787 -/
example : upstreamExpr c!"LOCALTIMESTAMP" (upstreamCall .Function_Now 0) = true := by decide +kernel
/-- expression.rs:1788 -/
example : upstreamExpr c!"LOCALTIMESTAMP()" (upstreamCall .Function_Now 0) = true := by decide +kernel
/-- expression.rs:1789 -/
example : upstreamExpr c!"LOCALTIMESTAMP(10)" (upstreamCall .Function_Now 1) = true := by decide +kernel
/-- expression.rs:1790 -/
example : upstreamExpr c!"DATE('2013-07-18 12:21:32')" (upstreamCall .Function_Date 1) = true := by decide +kernel
/-- expression.rs:1791 -/
example : upstreamExpr c!"DATE_FORMAT('2009-10-04 22:23:00', '%W %M %Y')" (upstreamCall .Function_DateFormat 2) = true := by decide +kernel
/-- expression.rs:1796 -/
example : upstreamExpr c!"DATE_SUB('1998-01-02', INTERVAL 31 DAY)" (upstreamCall .Function_DateSub 2) = true := by decide +kernel
/-- expression.rs:1801 -/
example : upstreamExpr c!"DAY('2007-02-03')" (upstreamCall .Function_DayOfMonth 1) = true := by decide +kernel
/-- expression.rs:1802 -/
example : upstreamExpr c!"DAYOFMONTH('2007-02-03')" (upstreamCall .Function_DayOfMonth 1) = true := by decide +kernel
/-- expression.rs:1803 -/
example : upstreamExpr c!"DATEDIFF('2007-12-31 23:59:59','2007-12-30')" (upstreamCall .Function_DateDiff 2) = true := by decide +kernel
/-- expression.rs:1808 -/
example : upstreamExpr c!"DAYNAME('2007-02-03')" (upstreamCall .Function_DayName 1) = true := by decide +kernel
/-- expression.rs:1809 -/
example : upstreamExpr c!"DAYOFYEAR('2018-02-16')" (upstreamCall .Function_DayOfYear 1) = true := by decide +kernel
/-- expression.rs:1810 -/
example : upstreamExpr c!"DAYOFWEEK('2007-02-03')" (upstreamCall .Function_DayOfWeek 1) = true := by decide +kernel
/-- expression.rs:1818 -/
example : upstreamExpr c!"FROM_DAYS(730669)" (upstreamCall .Function_FromDays 1) = true := by decide +kernel
/-- expression.rs:1819 -/
example : upstreamExpr c!"FROM_UNIXTIME(1196440219)" (upstreamCall .Function_FromUnixTime 1) = true := by decide +kernel
/-- expression.rs:1820 -/
example : upstreamExpr c!"FROM_UNIXTIME(UNIX_TIMESTAMP(), '%Y %D %M %h:%i:%s %x')" (upstreamCall .Function_FromUnixTime 2) = true := by decide +kernel
/-- expression.rs:1826 -/
example : upstreamExpr c!"HOUR('10:05:03')" (upstreamCall .Function_Hour 1) = true := by decide +kernel
/-- expression.rs:1827 -/
example : upstreamExpr c!"LAST_DAY('2004-01-01 01:01:01')" (upstreamCall .Function_LastDay 1) = true := by decide +kernel
/-- expression.rs:1828 -/
example : upstreamExpr c!"MAKEDATE(2011,31)" (upstreamCall .Function_MakeDate 2) = true := by decide +kernel
/-- expression.rs:1829 -/
example : upstreamExpr c!"MAKETIME(-13,57,33)" (upstreamCall .Function_MakeTime 3) = true := by decide +kernel
/-- expression.rs:1830 -/
example : upstreamExpr c!"MICROSECOND('12:00:00.123456')" (upstreamCall .Function_MicroSecond 1) = true := by decide +kernel
/-- expression.rs:1831 -/
example : upstreamExpr c!"MINUTE('2013-08-03 11:04:03')" (upstreamCall .Function_Minute 1) = true := by decide +kernel
/-- expression.rs:1832 -/
example : upstreamExpr c!"MONTH('2019-01-03')" (upstreamCall .Function_Month 1) = true := by decide +kernel
/-- expression.rs:1833 -/
example : upstreamExpr c!"MONTHNAME('2019-02-03')" (upstreamCall .Function_MonthName 1) = true := by decide +kernel
/-- expression.rs:1834 -/
example : upstreamExpr c!"PERIOD_ADD(200801,2)" (upstreamCall .Function_PeriodAdd 2) = true := by decide +kernel
/-- expression.rs:1835 -/
example : upstreamExpr c!"PERIOD_DIFF(200802,200703)" (upstreamCall .Function_PeriodDiff 2) = true := by decide +kernel
/-- expression.rs:1836 -/
example : upstreamExpr c!"QUARTER('2008-04-01')" (upstreamCall .Function_Quarter 1) = true := by decide +kernel
/-- expression.rs:1837 -/
example : upstreamExpr c!"SEC_TO_TIME(12414)" (upstreamCall .Function_SecToTime 1) = true := by decide +kernel
/-- expression.rs:1838 -/
example : upstreamExpr c!"SECOND('10:05:03')" (upstreamCall .Function_Second 1) = true := by decide +kernel
/-- expression.rs:1839 -/
example : upstreamExpr c!"STR_TO_DATE('Wednesday, June 2, 2014', '%W, %M %e, %Y')" (upstreamCall .Function_StrToDate 2) = true := by decide +kernel
/-- expression.rs:1844 -/
example : upstreamExpr c!"DATE_SUB('2008-01-02', INTERVAL 31 DAY)" (upstreamCall .Function_DateSub 2) = true := by decide +kernel
/-- expression.rs:1849 -/
example : upstreamExpr c!"SUBDATE('2008-01-02 12:00:00', 31)" (upstreamCall .Function_DateSub 2) = true := by decide +kernel
/-- expression.rs:1850 -/
example : upstreamExpr c!"SUBDATE('2008-01-02', INTERVAL 31 DAY)" (upstreamCall .Function_DateSub 2) = true := by decide +kernel
/-- expression.rs:1855 -/
example : upstreamExpr c!"SUBTIME('2007-12-31 23:59:59.999999','1 1:1:1.000002')" (upstreamCall .Function_SubTime 2) = true := by decide +kernel
/-- expression.rs:1860 -/
example : upstreamExpr c!"SYSDATE()" (upstreamCall .Function_SysDate 0) = true := by decide +kernel
/-- expression.rs:1861 -/
example : upstreamExpr c!"SYSDATE(4)" (upstreamCall .Function_SysDate 1) = true := by decide +kernel
/-- expression.rs:1862 -/
example : upstreamExpr c!"TIME('2003-12-31 01:02:03')" (upstreamCall .Function_Time 1) = true := by decide +kernel
/-- expression.rs:1863 -/
example : upstreamExpr c!"TIME_FORMAT('100:00:00', '%H %k %h %I %l')" (upstreamCall .Function_TimeFormat 2) = true := by decide +kernel
/-- expression.rs:1868 -/
example : upstreamExpr c!"TIME_TO_SEC('22:23:00')" (upstreamCall .Function_TimeToSec 1) = true := by decide +kernel
/-- expression.rs:1869 -/
example : upstreamExpr c!"TIMEDIFF('2008-12-31 23:59:59.000001', '2008-12-30 01:01:01.000002')" (upstreamCall .Function_TimeDiff 2) = true := by decide +kernel
/-- expression.rs:1874 -/
example : upstreamExpr c!"TIMESTAMP('2003-12-31')" (upstreamCall .Function_Timestamp 1) = true := by decide +kernel
/-- expression.rs:1875 -/
example : upstreamExpr c!"TIMESTAMP('2003-12-31 12:00:00','6:30:00')" (upstreamCall .Function_Timestamp 2) = true := by decide +kernel
/-- expression.rs:1892 -/
example : upstreamExpr c!"TO_DAYS('2007-10-07')" (upstreamCall .Function_ToDays 1) = true := by decide +kernel
/-- expression.rs:1893 -/
example : upstreamExpr c!"UNIX_TIMESTAMP()" (upstreamCall .Function_UnixTimestamp 0) = true := by decide +kernel
/-- expression.rs:1894 -/
example : upstreamExpr c!"UNIX_TIMESTAMP('2007-11-30 10:30:19')" (upstreamCall .Function_UnixTimestamp 1) = true := by decide +kernel
/-- expression.rs:1899 -/
example : upstreamExpr c!"UTC_DATE" (upstreamCall .Function_UtcDate 0) = true := by decide +kernel
/-- expression.rs:1900 -/
example : upstreamExpr c!"UTC_DATE()" (upstreamCall .Function_UtcDate 0) = true := by decide +kernel
/-- expression.rs:1901 -/
example : upstreamExpr c!"UTC_TIME" (upstreamCall .Function_UtcTime 0) = true := by decide +kernel
/-- expression.rs:1902 -/
example : upstreamExpr c!"UTC_TIME()" (upstreamCall .Function_UtcTime 0) = true := by decide +kernel
/-- expression.rs:1903 -/
example : upstreamExpr c!"UTC_TIME(5)" (upstreamCall .Function_UtcTime 1) = true := by decide +kernel
/-- expression.rs:1904 -/
example : upstreamExpr c!"UTC_TIMESTAMP" (upstreamCall .Function_UtcTimeStamp 0) = true := by decide +kernel
/-- expression.rs:1905 -/
example : upstreamExpr c!"UTC_TIMESTAMP()" (upstreamCall .Function_UtcTimeStamp 0) = true := by decide +kernel
/-- expression.rs:1906 -/
example : upstreamExpr c!"UTC_TIMESTAMP(4)" (upstreamCall .Function_UtcTimeStamp 1) = true := by decide +kernel
/-- expression.rs:1907 -/
example : upstreamExpr c!"WEEK('2008-02-20')" (upstreamCall .Function_Week 1) = true := by decide +kernel
/-- expression.rs:1908 -/
example : upstreamExpr c!"WEEK('2008-02-20',0)" (upstreamCall .Function_Week 2) = true := by decide +kernel
/-- expression.rs:1909 -/
example : upstreamExpr c!"WEEKDAY('2008-02-03 22:23:00')" (upstreamCall .Function_Weekday 1) = true := by decide +kernel
/-- expression.rs:1910 -/
example : upstreamExpr c!"WEEKOFYEAR('2008-02-20')" (upstreamCall .Function_WeekOfYear 1) = true := by decide +kernel
/-- expression.rs:1911 -/
example : upstreamExpr c!"YEAR('1987-01-01')" (upstreamCall .Function_Year 1) = true := by decide +kernel
/-- expression.rs:1912 -/
example : upstreamExpr c!"YEARWEEK('1987-01-01')" (upstreamCall .Function_YearWeek 1) = true := by decide +kernel
/-- expression.rs:1913 -/
example : upstreamExpr c!"YEARWEEK('1987-01-01',0)" (upstreamCall .Function_YearWeek 2) = true := by decide +kernel
/-- expression.rs:1811 -/
example : upstreamExpr c!"EXTRACT(YEAR_MONTH FROM '2009-07-02 01:02:03')" (upstreamKind .Extract) = true := by decide +kernel
/-- expression.rs:1880 -/
example : upstreamExpr c!"TIMESTAMPADD(MINUTE,1,'2003-01-02')" (upstreamKind .TimestampAdd) = true := by decide +kernel
/-- expression.rs:1886 -/
example : upstreamExpr c!"TIMESTAMPDIFF(MONTH,'2003-02-01','2003-05-01');" (upstreamKind .TimestampDiff) = true := by decide +kernel
/-- expression.rs:1693 -/
example : upstreamExpr c!"`a` + `b` * `c` + `d`" (fun e => match e with
  | .node .Binary [.binop .add, _, .node .Binary [.binop .add, _, a, .node .Binary [.binop .mult, _, b, c]], d] =>
    upstreamIdent c!"a" a && upstreamIdent c!"b" b && upstreamIdent c!"c" c && upstreamIdent c!"d" d
  | _ => false) = true := by decide +kernel

end SqlParse
