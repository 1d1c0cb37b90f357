import Verif.Props.RoundTripLimits
import Verif.Props.CallProps
/-!
# Conformance of the reader with the project's unit tests

The expected trees of /repo/tests/convert/*.py, checked by the kernel on the model.  Rules other than expressions, types and
queries are tested inside of a query.  These are tests of the model; no theorem depends on them.
-/
set_option autoImplicit false
namespace Treeno.Conformance
open Treeno Treeno.Props

-- test_aggregate_functions.py 91
example : expressionFromSql (c% "Sum(a)") = .ok (.agg .sum [(.field (c% "a") none (.simple .unknown))] [] none none false) := expr_of_parserN 60 (by krfl)
-- test_aggregate_functions.py 95
example : expressionFromSql (c% "ARBITRARY(a)") = .ok (.agg .arbitrary [(.field (c% "a") none (.simple .unknown))] [] none none false) := expr_of_parserN 60 (by krfl)
-- test_aggregate_functions.py 99
example : expressionFromSql (c% "ARRAY_AGG(a)") = .ok (.agg .arrayAgg [(.field (c% "a") none (.simple .unknown))] [] none none false) := expr_of_parserN 60 (by krfl)
-- test_aggregate_functions.py 103
example : expressionFromSql (c% "AVG(a)") = .ok (.agg .avg [(.field (c% "a") none (.simple .unknown))] [] none none false) := expr_of_parserN 60 (by krfl)
-- test_aggregate_functions.py 107
example : expressionFromSql (c% "BOOL_AND(a)") = .ok (.agg .boolAnd [(.field (c% "a") none (.simple .unknown))] [] none none false) := expr_of_parserN 60 (by krfl)
-- test_aggregate_functions.py 111
example : expressionFromSql (c% "BOOL_OR(a)") = .ok (.agg .boolOr [(.field (c% "a") none (.simple .unknown))] [] none none false) := expr_of_parserN 60 (by krfl)
-- test_aggregate_functions.py 115
example : expressionFromSql (c% "CHECKSUM(a)") = .ok (.agg .checksum [(.field (c% "a") none (.simple .unknown))] [] none none false) := expr_of_parserN 60 (by krfl)
-- test_aggregate_functions.py 119
example : expressionFromSql (c% "EVERY(a)") = .ok (.agg .every [(.field (c% "a") none (.simple .unknown))] [] none none false) := expr_of_parserN 60 (by krfl)
-- test_aggregate_functions.py 123
example : expressionFromSql (c% "GEOMETRIC_MEAN(a)") = .ok (.agg .geometricMean [(.field (c% "a") none (.simple .unknown))] [] none none false) := expr_of_parserN 60 (by krfl)
-- test_aggregate_functions.py 127
example : expressionFromSql (c% "BITWISE_AND_AGG(a)") = .ok (.agg .bitwiseAndAgg [(.field (c% "a") none (.simple .unknown))] [] none none false) := expr_of_parserN 60 (by krfl)
-- test_aggregate_functions.py 131
example : expressionFromSql (c% "BITWISE_OR_AGG(a)") = .ok (.agg .bitwiseOrAgg [(.field (c% "a") none (.simple .unknown))] [] none none false) := expr_of_parserN 60 (by krfl)
-- test_aggregate_functions.py 135
example : expressionFromSql (c% "HISTOGRAM(a)") = .ok (.agg .histogram [(.field (c% "a") none (.simple .unknown))] [] none none false) := expr_of_parserN 60 (by krfl)
-- test_aggregate_functions.py 139
example : expressionFromSql (c% "MAP_AGG(a, b)") = .ok (.agg .mapAgg [(.field (c% "a") none (.simple .unknown)), (.field (c% "b") none (.simple .unknown))] [] none none false) := expr_of_parserN 60 (by krfl)
-- test_aggregate_functions.py 143
example : expressionFromSql (c% "MAP_UNION(a)") = .ok (.agg .mapUnion [(.field (c% "a") none (.simple .unknown))] [] none none false) := expr_of_parserN 60 (by krfl)
-- test_aggregate_functions.py 147
example : expressionFromSql (c% "MULTIMAP_AGG(a, b)") = .ok (.agg .multimapAgg [(.field (c% "a") none (.simple .unknown)), (.field (c% "b") none (.simple .unknown))] [] none none false) := expr_of_parserN 60 (by krfl)
-- test_aggregate_functions.py 153
example : expressionFromSql (c% "APPROX_DISTINCT(a)") = .ok (.agg .approxDistinct [(.field (c% "a") none (.simple .unknown))] [] none none false) := expr_of_parserN 60 (by krfl)
-- test_aggregate_functions.py 157
example : expressionFromSql (c% "APPROX_DISTINCT(a, eps)") = .ok (.agg .approxDistinct [(.field (c% "a") none (.simple .unknown)), (.field (c% "eps") none (.simple .unknown))] [] none none false) := expr_of_parserN 60 (by krfl)
-- test_aggregate_functions.py 165
example : expressionFromSql (c% "APPROX_MOST_FREQUENT(buckets, value, capacity)") = .ok (.agg .approxMostFrequent [(.field (c% "buckets") none (.simple .unknown)), (.field (c% "value") none (.simple .unknown)), (.field (c% "capacity") none (.simple .unknown))] [] none none false) := expr_of_parserN 60 (by krfl)
-- test_aggregate_functions.py 173
example : expressionFromSql (c% "APPROX_SET(a)") = .ok (.agg .approxSet [(.field (c% "a") none (.simple .unknown))] [] none none false) := expr_of_parserN 60 (by krfl)
-- test_aggregate_functions.py 177
example : expressionFromSql (c% "MERGE(a)") = .ok (.agg .merge [(.field (c% "a") none (.simple .unknown))] [] none none false) := expr_of_parserN 60 (by krfl)
-- test_aggregate_functions.py 181
example : expressionFromSql (c% "NUMERIC_HISTOGRAM(buckets, a)") = .ok (.agg .numericHistogram [(.field (c% "buckets") none (.simple .unknown)), (.field (c% "a") none (.simple .unknown))] [] none none false) := expr_of_parserN 60 (by krfl)
-- test_aggregate_functions.py 189
example : expressionFromSql (c% "NUMERIC_HISTOGRAM(buckets, a, weight)") = .ok (.agg .numericHistogram [(.field (c% "buckets") none (.simple .unknown)), (.field (c% "a") none (.simple .unknown)), (.field (c% "weight") none (.simple .unknown))] [] none none false) := expr_of_parserN 60 (by krfl)
-- test_aggregate_functions.py 195
example : expressionFromSql (c% "QDIGEST_AGG(a)") = .ok (.agg .qdigestAgg [(.field (c% "a") none (.simple .unknown))] [] none none false) := expr_of_parserN 60 (by krfl)
-- test_aggregate_functions.py 199
example : expressionFromSql (c% "QDIGEST_AGG(a, weight)") = .ok (.agg .qdigestAgg [(.field (c% "a") none (.simple .unknown)), (.field (c% "weight") none (.simple .unknown))] [] none none false) := expr_of_parserN 60 (by krfl)
-- test_aggregate_functions.py 205
example : expressionFromSql (c% "QDIGEST_AGG(a, weight, accuracy)") = .ok (.agg .qdigestAgg [(.field (c% "a") none (.simple .unknown)), (.field (c% "weight") none (.simple .unknown)), (.field (c% "accuracy") none (.simple .unknown))] [] none none false) := expr_of_parserN 60 (by krfl)
-- test_aggregate_functions.py 211
example : expressionFromSql (c% "TDIGEST_AGG(a)") = .ok (.agg .tdigestAgg [(.field (c% "a") none (.simple .unknown))] [] none none false) := expr_of_parserN 60 (by krfl)
-- test_aggregate_functions.py 215
example : expressionFromSql (c% "TDIGEST_AGG(a, weight)") = .ok (.agg .tdigestAgg [(.field (c% "a") none (.simple .unknown)), (.field (c% "weight") none (.simple .unknown))] [] none none false) := expr_of_parserN 60 (by krfl)
-- test_aggregate_functions.py 222
example : expressionFromSql (c% "APPROX_PERCENTILE(a, percent)") = .ok (.agg .approxPercentile [(.field (c% "a") none (.simple .unknown)), (.field (c% "percent") none (.simple .unknown))] [] none none false) := expr_of_parserN 60 (by krfl)
-- test_aggregate_functions.py 230
example : expressionFromSql (c% "APPROX_PERCENTILE(a, percent, weight)") = .ok (.agg .approxPercentile [(.field (c% "a") none (.simple .unknown)), (.field (c% "weight") none (.simple .unknown)), (.field (c% "percent") none (.simple .unknown))] [] none none false) := expr_of_parserN 60 (by krfl)
-- test_aggregate_functions.py 237
example : expressionFromSql (c% "MAX(a)") = .ok (.agg .max [(.field (c% "a") none (.simple .unknown))] [] none none false) := expr_of_parserN 60 (by krfl)
-- test_aggregate_functions.py 241
example : expressionFromSql (c% "MAX(a, n)") = .ok (.agg .max [(.field (c% "a") none (.simple .unknown)), (.field (c% "n") none (.simple .unknown))] [] none none false) := expr_of_parserN 60 (by krfl)
-- test_aggregate_functions.py 245
example : expressionFromSql (c% "MAX_BY(a, b)") = .ok (.agg .maxBy [(.field (c% "a") none (.simple .unknown)), (.field (c% "b") none (.simple .unknown))] [] none none false) := expr_of_parserN 60 (by krfl)
-- test_aggregate_functions.py 249
example : expressionFromSql (c% "MAX_BY(a, b, n)") = .ok (.agg .maxBy [(.field (c% "a") none (.simple .unknown)), (.field (c% "b") none (.simple .unknown)), (.field (c% "n") none (.simple .unknown))] [] none none false) := expr_of_parserN 60 (by krfl)
-- test_aggregate_functions.py 255
example : expressionFromSql (c% "MIN(a)") = .ok (.agg .min [(.field (c% "a") none (.simple .unknown))] [] none none false) := expr_of_parserN 60 (by krfl)
-- test_aggregate_functions.py 259
example : expressionFromSql (c% "MIN(a, n)") = .ok (.agg .min [(.field (c% "a") none (.simple .unknown)), (.field (c% "n") none (.simple .unknown))] [] none none false) := expr_of_parserN 60 (by krfl)
-- test_aggregate_functions.py 263
example : expressionFromSql (c% "MIN_BY(a, b)") = .ok (.agg .minBy [(.field (c% "a") none (.simple .unknown)), (.field (c% "b") none (.simple .unknown))] [] none none false) := expr_of_parserN 60 (by krfl)
-- test_aggregate_functions.py 267
example : expressionFromSql (c% "MIN_BY(a, b, n)") = .ok (.agg .minBy [(.field (c% "a") none (.simple .unknown)), (.field (c% "b") none (.simple .unknown)), (.field (c% "n") none (.simple .unknown))] [] none none false) := expr_of_parserN 60 (by krfl)
-- test_aggregate_functions.py 276
example : expressionFromSql (c% "LISTAGG(a) WITHIN GROUP (ORDER BY a)") = .ok (.listagg (.field (c% "a") none (.simple .unknown)) (c% " ") none [(.mk (.field (c% "a") none (.simple .unknown)) false false)]) := expr_of_parserN 60 (by krfl)
-- test_aggregate_functions.py 284
example : expressionFromSql (c% "LISTAGG(a, 'abc' ON OVERFLOW TRUNCATE 'xyz' WITH COUNT) WITHIN GROUP (ORDER BY a)") = .ok (.listagg (.field (c% "a") none (.simple .unknown)) (c% "abc") (some (c% "xyz", true)) [(.mk (.field (c% "a") none (.simple .unknown)) false false)]) := expr_of_parserN 60 (by krfl)
-- test_aggregate_functions.py 298
example : expressionFromSql (c% "CORR(y, x)") = .ok (.agg .corr [(.field (c% "y") none (.simple .unknown)), (.field (c% "x") none (.simple .unknown))] [] none none false) := expr_of_parserN 60 (by krfl)
-- test_aggregate_functions.py 302
example : expressionFromSql (c% "COVAR_POP(y, x)") = .ok (.agg .covarPop [(.field (c% "y") none (.simple .unknown)), (.field (c% "x") none (.simple .unknown))] [] none none false) := expr_of_parserN 60 (by krfl)
-- test_aggregate_functions.py 306
example : expressionFromSql (c% "COVAR_SAMP(y, x)") = .ok (.agg .covarSamp [(.field (c% "y") none (.simple .unknown)), (.field (c% "x") none (.simple .unknown))] [] none none false) := expr_of_parserN 60 (by krfl)
-- test_aggregate_functions.py 310
example : expressionFromSql (c% "KURTOSIS(y, x)") = .ok (.agg .kurtosis [(.field (c% "y") none (.simple .unknown)), (.field (c% "x") none (.simple .unknown))] [] none none false) := expr_of_parserN 60 (by krfl)
-- test_aggregate_functions.py 314
example : expressionFromSql (c% "REGR_INTERCEPT(y, x)") = .ok (.agg .regrIntercept [(.field (c% "y") none (.simple .unknown)), (.field (c% "x") none (.simple .unknown))] [] none none false) := expr_of_parserN 60 (by krfl)
-- test_aggregate_functions.py 320
example : expressionFromSql (c% "REGR_SLOPE(y, x)") = .ok (.agg .regrSlope [(.field (c% "y") none (.simple .unknown)), (.field (c% "x") none (.simple .unknown))] [] none none false) := expr_of_parserN 60 (by krfl)
-- test_aggregate_functions.py 324
example : expressionFromSql (c% "SKEWNESS(x)") = .ok (.agg .skewness [(.field (c% "x") none (.simple .unknown))] [] none none false) := expr_of_parserN 60 (by krfl)
-- test_aggregate_functions.py 328
example : expressionFromSql (c% "STDDEV(x)") = .ok (.agg .stddev [(.field (c% "x") none (.simple .unknown))] [] none none false) := expr_of_parserN 60 (by krfl)
-- test_aggregate_functions.py 332
example : expressionFromSql (c% "STDDEV_POP(x)") = .ok (.agg .stddevPop [(.field (c% "x") none (.simple .unknown))] [] none none false) := expr_of_parserN 60 (by krfl)
-- test_aggregate_functions.py 336
example : expressionFromSql (c% "STDDEV_SAMP(x)") = .ok (.agg .stddevSamp [(.field (c% "x") none (.simple .unknown))] [] none none false) := expr_of_parserN 60 (by krfl)
-- test_aggregate_functions.py 340
example : expressionFromSql (c% "VARIANCE(x)") = .ok (.agg .variance [(.field (c% "x") none (.simple .unknown))] [] none none false) := expr_of_parserN 60 (by krfl)
-- test_aggregate_functions.py 344
example : expressionFromSql (c% "VAR_POP(x)") = .ok (.agg .varPop [(.field (c% "x") none (.simple .unknown))] [] none none false) := expr_of_parserN 60 (by krfl)
-- test_aggregate_functions.py 348
example : expressionFromSql (c% "VAR_SAMP(x)") = .ok (.agg .varSamp [(.field (c% "x") none (.simple .unknown))] [] none none false) := expr_of_parserN 60 (by krfl)
-- test_basic.py 47
example : expressionFromSql (c% "NULL") = .ok (.lit none (.simple .unknown)) := expr_of_parserN 60 (by krfl)
-- test_basic.py 54
example : expressionFromSql (c% "123") = .ok (.lit (some (.int (123))) (.simple .integer)) := expr_of_parserN 60 (by krfl)
-- test_basic.py 58
example : expressionFromSql (c% "-123") = .ok (.lit (some (.int (-123))) (.simple .integer)) := expr_of_parserN 60 (by krfl)
-- test_basic.py 65
example : expressionFromSql (c% "123.45") = .ok (.lit (some (.dec ⟨false, 12345, -2⟩)) (.decimal 5 2)) := expr_of_parserN 60 (by krfl)
-- test_basic.py 71
example : expressionFromSql (c% "-123.45") = .ok (.lit (some (.dec ⟨true, 12345, -2⟩)) (.decimal 5 2)) := expr_of_parserN 60 (by krfl)
-- test_basic.py 78
example : expressionFromSql (c% "-1.23E+2") = .ok (.lit (some (.float (c% "-123.0"))) (.simple .double)) := expr_of_parserN 60 (by krfl)
-- test_basic.py 84
example : expressionFromSql (c% ".45E-2") = .ok (.lit (some (.float (c% "0.0045"))) (.simple .double)) := expr_of_parserN 60 (by krfl)
-- test_basic.py 91
example : expressionFromSql (c% "'abc'") = .ok (.lit (some (.str (c% "abc"))) (.varchar (some 3))) := expr_of_parserN 60 (by krfl)
-- test_basic.py 97
example : expressionFromSql (c% "U&'chilly snowman \\2603'") = .ok (.lit (some (.str (c% "chilly snowman ☃"))) (.varchar (some 16))) := expr_of_parserN 60 (by krfl)
-- test_basic.py 105
example : expressionFromSql (c% "U&'chilly snowman #2603' UESCAPE '#'") = .ok (.lit (some (.str (c% "chilly snowman ☃"))) (.varchar (some 16))) := expr_of_parserN 60 (by krfl)
-- test_basic.py 112
example : expressionFromSql (c% "TRUE") = .ok (.lit (some (.bool true)) (.simple .boolean)) := expr_of_parserN 60 (by krfl)
-- test_basic.py 118
example : expressionFromSql (c% "FALSE") = .ok (.lit (some (.bool false)) (.simple .boolean)) := expr_of_parserN 60 (by krfl)
-- test_common_functions.py 16
example : expressionFromSql (c% "'2' || '3'") = .ok (.func .concat [(.lit (some (.str (c% "2"))) (.varchar (some 1))), (.lit (some (.str (c% "3"))) (.varchar (some 1)))]) := expr_of_parserN 60 (by krfl)
-- test_common_functions.py 19
example : expressionFromSqlN 60 (c% "'2' || '3'") = expressionFromSqlN 60 (c% "CONCAT('2', '3')") := by krfl
-- test_common_functions.py 27
example : expressionFromSql (c% "ARRAY[2,3,4] || 3") = .ok (.func .concat [(.array [(.lit (some (.int (2))) (.simple .integer)), (.lit (some (.int (3))) (.simple .integer)), (.lit (some (.int (4))) (.simple .integer))]), (.lit (some (.int (3))) (.simple .integer))]) := expr_of_parserN 60 (by krfl)
-- test_common_functions.py 30
example : expressionFromSqlN 60 (c% "ARRAY[2,3,4] || 3") = expressionFromSqlN 60 (c% "CONCAT(ARRAY[2,3,4], 3)") := by krfl
-- test_common_functions.py 38
example : expressionFromSql (c% "ARRAY[2,3,4] || ARRAY[3]") = .ok (.func .concat [(.array [(.lit (some (.int (2))) (.simple .integer)), (.lit (some (.int (3))) (.simple .integer)), (.lit (some (.int (4))) (.simple .integer))]), (.array [(.lit (some (.int (3))) (.simple .integer))])]) := expr_of_parserN 60 (by krfl)
-- test_common_functions.py 39
example : expressionFromSqlN 60 (c% "ARRAY[2,3,4] || ARRAY[3]") = expressionFromSqlN 60 (c% "CONCAT(ARRAY[2,3,4], ARRAY[3])") := by krfl
-- test_common_functions.py 49
example : expressionFromSql (c% "ARRAY[ARRAY[2,3,4]] || ARRAY[3]") = .ok (.func .concat [(.array [(.array [(.lit (some (.int (2))) (.simple .integer)), (.lit (some (.int (3))) (.simple .integer)), (.lit (some (.int (4))) (.simple .integer))])]), (.array [(.lit (some (.int (3))) (.simple .integer))])]) := expr_of_parserN 60 (by krfl)
-- test_common_functions.py 52
example : expressionFromSqlN 60 (c% "ARRAY[ARRAY[2,3,4]] || ARRAY[3]") = expressionFromSqlN 60 (c% "CONCAT(ARRAY[ARRAY[2,3,4]], ARRAY[3])") := by krfl
-- test_conditional_functions.py 12
example : expressionFromSql (c% "IF(TRUE, 1, 2)") = .ok (.func .if_ [(.lit (some (.bool true)) (.simple .boolean)), (.lit (some (.int (1))) (.simple .integer)), (.lit (some (.int (2))) (.simple .integer))]) := expr_of_parserN 60 (by krfl)
-- test_conditional_functions.py 18
example : expressionFromSql (c% "IF(TRUE, 1)") = .ok (.func .if_ [(.lit (some (.bool true)) (.simple .boolean)), (.lit (some (.int (1))) (.simple .integer))]) := expr_of_parserN 60 (by krfl)
-- test_conditional_functions.py 24
example : expressionFromSql (c% "COALESCE(NULL, 0, 1)") = .ok (.func .coalesce [(.lit none (.simple .unknown)), (.lit (some (.int (0))) (.simple .integer)), (.lit (some (.int (1))) (.simple .integer))]) := expr_of_parserN 60 (by krfl)
-- test_conditional_functions.py 30
example : expressionFromSql (c% "NULLIF(0, 1)") = .ok (.func .nullif [(.lit (some (.int (0))) (.simple .integer)), (.lit (some (.int (1))) (.simple .integer))]) := expr_of_parserN 60 (by krfl)
-- test_conditional_functions.py 36
example : expressionFromSql (c% "NULLIF(0, 1)") = .ok (.func .nullif [(.lit (some (.int (0))) (.simple .integer)), (.lit (some (.int (1))) (.simple .integer))]) := expr_of_parserN 60 (by krfl)
-- test_conditional_functions.py 42
example : expressionFromSql (c% "TRY(NULL + 1)") = .ok (.func .try_ [(.bin .add (.lit none (.simple .unknown)) (.lit (some (.int (1))) (.simple .integer)))]) := expr_of_parserN 60 (by krfl)
-- test_datetime_functions.py 39
example : expressionFromSql (c% "CURRENT_DATE") = .ok (.session .currentDate) := expr_of_parserN 60 (by krfl)
-- test_datetime_functions.py 43
example : expressionFromSql (c% "CURRENT_TIMESTAMP") = .ok (.curTime .currentTimestamp 3) := expr_of_parserN 60 (by krfl)
-- test_datetime_functions.py 49
example : expressionFromSql (c% "CURRENT_TIMESTAMP(9)") = .ok (.curTime .currentTimestamp 9) := expr_of_parserN 60 (by krfl)
-- test_datetime_functions.py 52
example : expressionFromSql (c% "CURRENT_TIMESTAMP(13)") = .error .assertion := expr_of_parserN (x := .error .assertion) 60 (by krfl)
-- test_datetime_functions.py 59
example : expressionFromSql (c% "CURRENT_TIME") = .ok (.curTime .currentTime 3) := expr_of_parserN 60 (by krfl)
-- test_datetime_functions.py 65
example : expressionFromSql (c% "CURRENT_TIME(9)") = .ok (.curTime .currentTime 9) := expr_of_parserN 60 (by krfl)
-- test_datetime_functions.py 69
example : expressionFromSql (c% "LOCALTIME") = .ok (.curTime .localTime 3) := expr_of_parserN 60 (by krfl)
-- test_datetime_functions.py 75
example : expressionFromSql (c% "LOCALTIME(9)") = .ok (.curTime .localTime 9) := expr_of_parserN 60 (by krfl)
-- test_datetime_functions.py 79
example : expressionFromSql (c% "LOCALTIMESTAMP") = .ok (.curTime .localTimestamp 3) := expr_of_parserN 60 (by krfl)
-- test_datetime_functions.py 85
example : expressionFromSql (c% "LOCALTIMESTAMP(9)") = .ok (.curTime .localTimestamp 9) := expr_of_parserN 60 (by krfl)
-- test_datetime_functions.py 90
example : expressionFromSql (c% "FROM_UNIXTIME(a, zone)") = .ok (.func .fromUnixtime [(.field (c% "a") none (.simple .unknown)), (.field (c% "zone") none (.simple .unknown))]) := expr_of_parserN 60 (by krfl)
-- test_datetime_functions.py 96
example : expressionFromSql (c% "FROM_UNIXTIME(a, hrs, mins)") = .ok (.func .fromUnixtime [(.field (c% "a") none (.simple .unknown)), (.field (c% "hrs") none (.simple .unknown)), (.field (c% "mins") none (.simple .unknown))]) := expr_of_parserN 60 (by krfl)
-- test_datetime_functions.py 105
example : expressionFromSql (c% "DATE(x)") = .ok (.func .date [(.field (c% "x") none (.simple .unknown))]) := expr_of_parserN 60 (by krfl)
-- test_datetime_functions.py 108
example : expressionFromSql (c% "LAST_DAY_OF_MONTH(x)") = .ok (.func .lastDayOfMonth [(.field (c% "x") none (.simple .unknown))]) := expr_of_parserN 60 (by krfl)
-- test_datetime_functions.py 111
example : expressionFromSql (c% "FROM_ISO8601_TIMESTAMP(x)") = .ok (.func .fromIso8601Timestamp [(.field (c% "x") none (.simple .unknown))]) := expr_of_parserN 60 (by krfl)
-- test_datetime_functions.py 116
example : expressionFromSql (c% "FROM_ISO8601_TIMESTAMP_NANOS(x)") = .ok (.func .fromIso8601TimestampNanos [(.field (c% "x") none (.simple .unknown))]) := expr_of_parserN 60 (by krfl)
-- test_datetime_functions.py 121
example : expressionFromSql (c% "FROM_ISO8601_DATE(x)") = .ok (.func .fromIso8601Date [(.field (c% "x") none (.simple .unknown))]) := expr_of_parserN 60 (by krfl)
-- test_datetime_functions.py 126
example : expressionFromSql (c% "AT_TIMEZONE(x, 'America/New_York')") = .ok (.func .atTimezone [(.field (c% "x") none (.simple .unknown)), (.lit (some (.str (c% "America/New_York"))) (.varchar (some 16)))]) := expr_of_parserN 60 (by krfl)
-- test_datetime_functions.py 140
example : expressionFromSql (c% "FROM_UNIXTIME_NANOS(x)") = .ok (.func .fromUnixtimeNanos [(.field (c% "x") none (.simple .unknown))]) := expr_of_parserN 60 (by krfl)
-- test_datetime_functions.py 145
example : expressionFromSql (c% "NOW()") = .ok (.func .now []) := expr_of_parserN 60 (by krfl)
-- test_datetime_functions.py 148
example : expressionFromSql (c% "TO_ISO8601(x)") = .ok (.func .toIso8601 [(.field (c% "x") none (.simple .unknown))]) := expr_of_parserN 60 (by krfl)
-- test_datetime_functions.py 151
example : expressionFromSql (c% "TO_MILLISECONDS(x)") = .ok (.func .toMilliseconds [(.field (c% "x") none (.simple .unknown))]) := expr_of_parserN 60 (by krfl)
-- test_datetime_functions.py 154
example : expressionFromSql (c% "TO_UNIXTIME(x)") = .ok (.func .toUnixtime [(.field (c% "x") none (.simple .unknown))]) := expr_of_parserN 60 (by krfl)
-- test_datetime_functions.py 157
example : expressionFromSql (c% "DATE_TRUNC('quarter', x)") = .ok (.func .dateTrunc [(.lit (some (.str (c% "quarter"))) (.varchar (some 7))), (.field (c% "x") none (.simple .unknown))]) := expr_of_parserN 60 (by krfl)
-- test_datetime_functions.py 162
example : expressionFromSql (c% "DATE_ADD('second', 12, x)") = .ok (.func .dateAdd [(.lit (some (.str (c% "second"))) (.varchar (some 6))), (.lit (some (.int (12))) (.simple .integer)), (.field (c% "x") none (.simple .unknown))]) := expr_of_parserN 60 (by krfl)
-- test_datetime_functions.py 171
example : expressionFromSql (c% "DATE_DIFF('second', x, y)") = .ok (.func .dateDiff [(.lit (some (.str (c% "second"))) (.varchar (some 6))), (.field (c% "x") none (.simple .unknown)), (.field (c% "y") none (.simple .unknown))]) := expr_of_parserN 60 (by krfl)
-- test_datetime_functions.py 181
example : expressionFromSql (c% "PARSE_DURATION(x)") = .ok (.func .parseDuration [(.field (c% "x") none (.simple .unknown))]) := expr_of_parserN 60 (by krfl)
-- test_datetime_functions.py 184
example : expressionFromSql (c% "HUMAN_READABLE_SECONDS(x)") = .ok (.func .humanReadableSeconds [(.field (c% "x") none (.simple .unknown))]) := expr_of_parserN 60 (by krfl)
-- test_expressions.py 55
example : expressionFromSql (c% "1 + 1") = .ok (.bin .add (.lit (some (.int (1))) (.simple .integer)) (.lit (some (.int (1))) (.simple .integer))) := expr_of_parserN 60 (by krfl)
-- test_expressions.py 63
example : expressionFromSql (c% "1 - 1") = .ok (.bin .sub (.lit (some (.int (1))) (.simple .integer)) (.lit (some (.int (1))) (.simple .integer))) := expr_of_parserN 60 (by krfl)
-- test_expressions.py 71
example : expressionFromSql (c% "1 * 1") = .ok (.bin .mul (.lit (some (.int (1))) (.simple .integer)) (.lit (some (.int (1))) (.simple .integer))) := expr_of_parserN 60 (by krfl)
-- test_expressions.py 79
example : expressionFromSql (c% "1 / 1") = .ok (.bin .div (.lit (some (.int (1))) (.simple .integer)) (.lit (some (.int (1))) (.simple .integer))) := expr_of_parserN 60 (by krfl)
-- test_expressions.py 87
example : expressionFromSql (c% "1 % 1") = .ok (.bin .mod (.lit (some (.int (1))) (.simple .integer)) (.lit (some (.int (1))) (.simple .integer))) := expr_of_parserN 60 (by krfl)
-- test_expressions.py 93
example : expressionFromSql (c% "+1") = .ok (.un .pos (.lit (some (.int (1))) (.simple .integer))) := expr_of_parserN 60 (by krfl)
-- test_expressions.py 100
example : expressionFromSql (c% "-1") = .ok (.lit (some (.int (-1))) (.simple .integer)) := expr_of_parserN 60 (by krfl)
-- test_expressions.py 105
example : expressionFromSql (c% "-x") = .ok (.un .neg (.field (c% "x") none (.simple .unknown))) := expr_of_parserN 60 (by krfl)
-- test_expressions.py 111
example : expressionFromSql (c% "CAST(1 AS BIGINT)") = .ok (.cast false (.lit (some (.int (1))) (.simple .integer)) (.simple .bigint)) := expr_of_parserN 60 (by krfl)
-- test_expressions.py 118
example : expressionFromSql (c% "TRY_CAST(1 AS BIGINT)") = .ok (.cast true (.lit (some (.int (1))) (.simple .integer)) (.simple .bigint)) := expr_of_parserN 60 (by krfl)
-- test_expressions.py 123
example : expressionFromSql (c% "arr[3]") = .ok (.subscript (.field (c% "arr") none (.simple .unknown)) (.lit (some (.int (3))) (.simple .integer))) := expr_of_parserN 60 (by krfl)
-- test_expressions.py 132
example : expressionFromSql (c% "TRUE AND FALSE") = .ok (.bin .and (.lit (some (.bool true)) (.simple .boolean)) (.lit (some (.bool false)) (.simple .boolean))) := expr_of_parserN 60 (by krfl)
-- test_expressions.py 141
example : expressionFromSql (c% "TRUE OR FALSE") = .ok (.bin .or (.lit (some (.bool true)) (.simple .boolean)) (.lit (some (.bool false)) (.simple .boolean))) := expr_of_parserN 60 (by krfl)
-- test_expressions.py 151
example : expressionFromSql (c% "NOT TRUE") = .ok (.not (.lit (some (.bool true)) (.simple .boolean))) := expr_of_parserN 60 (by krfl)
-- test_expressions.py 158
example : expressionFromSql (c% "3 < 1") = .ok (.bin .lt (.lit (some (.int (3))) (.simple .integer)) (.lit (some (.int (1))) (.simple .integer))) := expr_of_parserN 60 (by krfl)
-- test_expressions.py 167
example : expressionFromSql (c% "3 <= 1") = .ok (.bin .le (.lit (some (.int (3))) (.simple .integer)) (.lit (some (.int (1))) (.simple .integer))) := expr_of_parserN 60 (by krfl)
-- test_expressions.py 176
example : expressionFromSql (c% "3 > 1") = .ok (.bin .gt (.lit (some (.int (3))) (.simple .integer)) (.lit (some (.int (1))) (.simple .integer))) := expr_of_parserN 60 (by krfl)
-- test_expressions.py 185
example : expressionFromSql (c% "3 >= 1") = .ok (.bin .ge (.lit (some (.int (3))) (.simple .integer)) (.lit (some (.int (1))) (.simple .integer))) := expr_of_parserN 60 (by krfl)
-- test_expressions.py 194
example : expressionFromSql (c% "3 = 1") = .ok (.bin .eq (.lit (some (.int (3))) (.simple .integer)) (.lit (some (.int (1))) (.simple .integer))) := expr_of_parserN 60 (by krfl)
-- test_expressions.py 203
example : expressionFromSql (c% "3 <> 1") = .ok (.bin .ne (.lit (some (.int (3))) (.simple .integer)) (.lit (some (.int (1))) (.simple .integer))) := expr_of_parserN 60 (by krfl)
-- test_expressions.py 218
example : expressionFromSql (c% "3 BETWEEN 1 AND 5") = .ok (.between (.lit (some (.int (3))) (.simple .integer)) (.lit (some (.int (1))) (.simple .integer)) (.lit (some (.int (5))) (.simple .integer))) := expr_of_parserN 60 (by krfl)
-- test_expressions.py 222
example : expressionFromSql (c% "3 NOT BETWEEN 1 AND 5") = .ok (.not (.between (.lit (some (.int (3))) (.simple .integer)) (.lit (some (.int (1))) (.simple .integer)) (.lit (some (.int (5))) (.simple .integer)))) := expr_of_parserN 60 (by krfl)
-- test_expressions.py 237
example : expressionFromSql (c% "3 IN (1+2, 5)") = .ok (.inList (.lit (some (.int (3))) (.simple .integer)) [(.bin .add (.lit (some (.int (1))) (.simple .integer)) (.lit (some (.int (2))) (.simple .integer))), (.lit (some (.int (5))) (.simple .integer))]) := expr_of_parserN 60 (by krfl)
-- test_expressions.py 241
example : expressionFromSql (c% "3 NOT IN (1+2, 5)") = .ok (.not (.inList (.lit (some (.int (3))) (.simple .integer)) [(.bin .add (.lit (some (.int (1))) (.simple .integer)) (.lit (some (.int (2))) (.simple .integer))), (.lit (some (.int (5))) (.simple .integer))])) := expr_of_parserN 60 (by krfl)
-- test_expressions.py 250
example : expressionFromSql (c% "'abc' LIKE '%b%'") = .ok (.like (.lit (some (.str (c% "abc"))) (.varchar (some 3))) (.lit (some (.str (c% "%b%"))) (.varchar (some 3))) none) := expr_of_parserN 60 (by krfl)
-- test_expressions.py 254
example : expressionFromSql (c% "'abc' NOT LIKE '%b%'") = .ok (.not (.like (.lit (some (.str (c% "abc"))) (.varchar (some 3))) (.lit (some (.str (c% "%b%"))) (.varchar (some 3))) none)) := expr_of_parserN 60 (by krfl)
-- test_expressions.py 258
example : expressionFromSql (c% "'ab%c' LIKE '%b/%%' ESCAPE '/'") = .ok (.like (.lit (some (.str (c% "ab%c"))) (.varchar (some 4))) (.lit (some (.str (c% "%b/%%"))) (.varchar (some 5))) (some (.lit (some (.str (c% "/"))) (.varchar (some 1))))) := expr_of_parserN 60 (by krfl)
-- test_expressions.py 270
example : expressionFromSql (c% "3 IS NULL") = .ok (.isNull (.lit (some (.int (3))) (.simple .integer))) := expr_of_parserN 60 (by krfl)
-- test_expressions.py 274
example : expressionFromSql (c% "3 IS NOT NULL") = .ok (.not (.isNull (.lit (some (.int (3))) (.simple .integer)))) := expr_of_parserN 60 (by krfl)
-- test_expressions.py 283
example : expressionFromSql (c% "1 IS DISTINCT FROM 1") = .ok (.bin .distinct (.lit (some (.int (1))) (.simple .integer)) (.lit (some (.int (1))) (.simple .integer))) := expr_of_parserN 60 (by krfl)
-- test_expressions.py 287
example : expressionFromSql (c% "1 IS NOT DISTINCT FROM 1") = .ok (.not (.bin .distinct (.lit (some (.int (1))) (.simple .integer)) (.lit (some (.int (1))) (.simple .integer)))) := expr_of_parserN 60 (by krfl)
-- test_expressions.py 294
example : expressionFromSql (c% "DECIMAL '3.0'") = .ok (.typeCtor (c% "3.0") (c% "DECIMAL")) := expr_of_parserN 60 (by krfl)
-- test_expressions.py 300
example : expressionFromSql (c% "TIMESTAMP '2021-01-01 00:00:01'") = .ok (.typeCtor (c% "2021-01-01 00:00:01") (c% "TIMESTAMP")) := expr_of_parserN 60 (by krfl)
-- test_expressions.py 306
example : expressionFromSql (c% "BIGINT '3'") = .ok (.typeCtor (c% "3") (c% "BIGINT")) := expr_of_parserN 60 (by krfl)
-- test_expressions.py 321
example : expressionFromSql (c% "DOUBLE '3'") = .ok (.typeCtor (c% "3") (c% "DOUBLE")) := expr_of_parserN 60 (by krfl)
-- test_expressions.py 330
example : expressionFromSqlN 60 (c% "ROW (1,2,3)") = expressionFromSqlN 60 (c% "(1,2,3)") := by krfl
-- test_expressions.py 333
example : expressionFromSql (c% "ROW (1,2,3)") = .ok (.row [(.lit (some (.int (1))) (.simple .integer)), (.lit (some (.int (2))) (.simple .integer)), (.lit (some (.int (3))) (.simple .integer))]) := expr_of_parserN 60 (by krfl)
-- test_expressions.py 340
example : expressionFromSql (c% "INTERVAL '3' YEAR") = .ok (.interval (c% "3") (c% "YEAR") none) := expr_of_parserN 60 (by krfl)
-- test_expressions.py 346
example : expressionFromSql (c% "INTERVAL -'3' YEAR") = .ok (.interval (c% "-3") (c% "YEAR") none) := expr_of_parserN 60 (by krfl)
-- test_expressions.py 352
example : expressionFromSql (c% "INTERVAL -'-3' YEAR") = .ok (.interval (c% "3") (c% "YEAR") none) := expr_of_parserN 60 (by krfl)
-- test_expressions.py 358
example : expressionFromSql (c% "INTERVAL -'+3' YEAR") = .ok (.interval (c% "-3") (c% "YEAR") none) := expr_of_parserN 60 (by krfl)
-- test_expressions.py 365
example : expressionFromSql (c% "INTERVAL '3-100' YEAR TO MONTH") = .ok (.interval (c% "3-100") (c% "YEAR") (some (c% "MONTH"))) := expr_of_parserN 60 (by krfl)
-- test_expressions.py 372
example : expressionFromSql (c% "a -> a + b - 5") = .ok (.lam [c% "a"] (.bin .sub (.bin .add (.var (c% "a")) (.field (c% "b") none (.simple .unknown))) (.lit (some (.int (5))) (.simple .integer)))) := expr_of_parserN 60 (by krfl)
-- test_expressions.py 390
example : expressionFromSql (c% "(b,c) -> b <> c") = .ok (.lam [c% "b", c% "c"] (.bin .ne (.var (c% "b")) (.var (c% "c")))) := expr_of_parserN 60 (by krfl)
-- test_expressions.py 404
example : expressionFromSql (c% "CASE 1 WHEN 1 THEN 2 WHEN a THEN b ELSE c END") = .ok (.case (some (.lit (some (.int (1))) (.simple .integer))) [((.lit (some (.int (1))) (.simple .integer)), (.lit (some (.int (2))) (.simple .integer))), ((.field (c% "a") none (.simple .unknown)), (.field (c% "b") none (.simple .unknown)))] (some (.field (c% "c") none (.simple .unknown)))) := expr_of_parserN 60 (by krfl)
-- test_expressions.py 416
example : expressionFromSql (c% "CASE WHEN 1 THEN 2 WHEN a THEN b ELSE c END") = .ok (.case none [((.lit (some (.int (1))) (.simple .integer)), (.lit (some (.int (2))) (.simple .integer))), ((.field (c% "a") none (.simple .unknown)), (.field (c% "b") none (.simple .unknown)))] (some (.field (c% "c") none (.simple .unknown)))) := expr_of_parserN 60 (by krfl)
-- test_groupby.py 15
example : queryFromSql (c% "SELECT 1 GROUP BY (a+b,c)") = .ok (some (.mk (.select [.lit (some (.int 1)) (.simple .integer)] none none (some (.mk [(.set [(.bin .add (.field (c% "a") none (.simple .unknown)) (.field (c% "b") none (.simple .unknown))), (.field (c% "c") none (.simple .unknown))])] false)) none false []) none none [] [])) := query_of_parserN 60 (by krfl)
-- test_groupby.py 23
example : queryFromSql (c% "SELECT 1 GROUP BY GROUPING SETS ((a,b), c)") = .ok (some (.mk (.select [.lit (some (.int 1)) (.simple .integer)] none none (some (.mk [(.sets [[(.field (c% "a") none (.simple .unknown)), (.field (c% "b") none (.simple .unknown))], [(.field (c% "c") none (.simple .unknown))]])] false)) none false []) none none [] [])) := query_of_parserN 60 (by krfl)
-- test_groupby.py 29
example : queryFromSql (c% "SELECT 1 GROUP BY CUBE (a,b)") = .ok (some (.mk (.select [.lit (some (.int 1)) (.simple .integer)] none none (some (.mk [(.cube [(.field (c% "a") none (.simple .unknown)), (.field (c% "b") none (.simple .unknown))])] false)) none false []) none none [] [])) := query_of_parserN 60 (by krfl)
-- test_groupby.py 35
example : queryFromSql (c% "SELECT 1 GROUP BY ROLLUP (a,b)") = .ok (some (.mk (.select [.lit (some (.int 1)) (.simple .integer)] none none (some (.mk [(.rollup [(.field (c% "a") none (.simple .unknown)), (.field (c% "b") none (.simple .unknown))])] false)) none false []) none none [] [])) := query_of_parserN 60 (by krfl)
-- test_orderby.py 17
example : queryFromSql (c% "SELECT 1 ORDER BY a") = .ok (some (.mk (.select [.lit (some (.int 1)) (.simple .integer)] none none none none false []) none none [(.mk (.field (c% "a") none (.simple .unknown)) false false)] [])) := query_of_parserN 60 (by krfl)
-- test_orderby.py 27
example : queryFromSql (c% "SELECT 1 ORDER BY a ASC") = .ok (some (.mk (.select [.lit (some (.int 1)) (.simple .integer)] none none none none false []) none none [(.mk (.field (c% "a") none (.simple .unknown)) false false)] [])) := query_of_parserN 60 (by krfl)
-- test_orderby.py 36
example : queryFromSql (c% "SELECT 1 ORDER BY a DESC") = .ok (some (.mk (.select [.lit (some (.int 1)) (.simple .integer)] none none none none false []) none none [(.mk (.field (c% "a") none (.simple .unknown)) true false)] [])) := query_of_parserN 60 (by krfl)
-- test_orderby.py 46
example : queryFromSql (c% "SELECT 1 ORDER BY a NULLS FIRST") = .ok (some (.mk (.select [.lit (some (.int 1)) (.simple .integer)] none none none none false []) none none [(.mk (.field (c% "a") none (.simple .unknown)) false true)] [])) := query_of_parserN 60 (by krfl)
-- test_orderby.py 55
example : queryFromSql (c% "SELECT 1 ORDER BY a DESC NULLS LAST") = .ok (some (.mk (.select [.lit (some (.int 1)) (.simple .integer)] none none none none false []) none none [(.mk (.field (c% "a") none (.simple .unknown)) true false)] [])) := query_of_parserN 60 (by krfl)
-- test_relations.py 48
example : queryFromSql (c% "SELECT 1 FROM foo.bar.baz") = .ok (some (.mk (.select [.lit (some (.int 1)) (.simple .integer)] (some (.table ⟨c% "baz", (some (c% "bar")), (some (c% "foo")), []⟩)) none none none false []) none none [] [])) := query_of_parserN 60 (by krfl)
-- test_relations.py 54
example : queryFromSql (c% "SELECT 1 FROM bar.baz") = .ok (some (.mk (.select [.lit (some (.int 1)) (.simple .integer)] (some (.table ⟨c% "baz", (some (c% "bar")), none, []⟩)) none none none false []) none none [] [])) := query_of_parserN 60 (by krfl)
-- test_relations.py 58
example : queryFromSql (c% "SELECT 1 FROM baz") = .ok (some (.mk (.select [.lit (some (.int 1)) (.simple .integer)] (some (.table ⟨c% "baz", none, none, []⟩)) none none none false []) none none [] [])) := query_of_parserN 60 (by krfl)
-- test_relations.py 63
example : queryFromSql (c% "SELECT 1 FROM (SELECT 1)") = .ok (some (.mk (.select [.lit (some (.int 1)) (.simple .integer)] (some (.query (.mk (.select [(.lit (some (.int (1))) (.simple .integer))] none none none none false []) none none [] []))) none none none false []) none none [] [])) := query_of_parserN 60 (by krfl)
-- test_relations.py 72
example : queryFromSql (c% "SELECT 1 FROM UNNEST(ARRAY [1,2,3], ARRAY['a','b','c'])") = .ok (some (.mk (.select [.lit (some (.int 1)) (.simple .integer)] (some (.unnest [(.array [(.lit (some (.int (1))) (.simple .integer)), (.lit (some (.int (2))) (.simple .integer)), (.lit (some (.int (3))) (.simple .integer))]), (.array [(.lit (some (.str (c% "a"))) (.varchar (some 1))), (.lit (some (.str (c% "b"))) (.varchar (some 1))), (.lit (some (.str (c% "c"))) (.varchar (some 1)))])] false)) none none none false []) none none [] [])) := query_of_parserN 60 (by krfl)
-- test_relations.py 94
example : queryFromSql (c% "SELECT 1 FROM UNNEST(some_column) WITH ORDINALITY") = .ok (some (.mk (.select [.lit (some (.int 1)) (.simple .integer)] (some (.unnest [(.field (c% "some_column") none (.simple .unknown))] true)) none none none false []) none none [] [])) := query_of_parserN 60 (by krfl)
-- test_relations.py 101
example : queryFromSql (c% "SELECT 1 FROM LATERAL (SELECT 1)") = .ok (some (.mk (.select [.lit (some (.int 1)) (.simple .integer)] (some (.lateral (.mk (.select [(.lit (some (.int (1))) (.simple .integer))] none none none none false []) none none [] []))) none none none false []) none none [] [])) := query_of_parserN 60 (by krfl)
-- test_relations.py 110
example : queryFromSql (c% "SELECT 1 FROM a.b.c CROSS JOIN x.y.z") = .ok (some (.mk (.select [.lit (some (.int 1)) (.simple .integer)] (some (.join (.table ⟨c% "c", (some (c% "b")), (some (c% "a")), []⟩) (.table ⟨c% "z", (some (c% "y")), (some (c% "x")), []⟩) .cross false none)) none none none false []) none none [] [])) := query_of_parserN 60 (by krfl)
-- test_relations.py 121
example : queryFromSql (c% "SELECT 1 FROM a.b.c INNER JOIN x.y.z ON c.foo = z.bar") = .ok (some (.mk (.select [.lit (some (.int 1)) (.simple .integer)] (some (.join (.table ⟨c% "c", (some (c% "b")), (some (c% "a")), []⟩) (.table ⟨c% "z", (some (c% "y")), (some (c% "x")), []⟩) .inner false (some (.on (.bin .eq (.field (c% "foo") (some (c% "c")) (.simple .unknown)) (.field (c% "bar") (some (c% "z")) (.simple .unknown))))))) none none none false []) none none [] [])) := query_of_parserN 60 (by krfl)
-- test_relations.py 140
example : queryFromSql (c% "SELECT 1 FROM a.b.c LEFT OUTER JOIN x.y.z USING (foo, bar)") = .ok (some (.mk (.select [.lit (some (.int 1)) (.simple .integer)] (some (.join (.table ⟨c% "c", (some (c% "b")), (some (c% "a")), []⟩) (.table ⟨c% "z", (some (c% "y")), (some (c% "x")), []⟩) .left false (some (.using [c% "foo", c% "bar"])))) none none none false []) none none [] [])) := query_of_parserN 60 (by krfl)
-- test_relations.py 155
example : queryFromSql (c% "SELECT 1 FROM a.b.c NATURAL FULL JOIN x.y.z") = .ok (some (.mk (.select [.lit (some (.int 1)) (.simple .integer)] (some (.join (.table ⟨c% "c", (some (c% "b")), (some (c% "a")), []⟩) (.table ⟨c% "z", (some (c% "y")), (some (c% "x")), []⟩) .outer true none)) none none none false []) none none [] [])) := query_of_parserN 60 (by krfl)
-- test_relations.py 166
example : queryFromSql (c% "SELECT 1 FROM a.b.c AS foo (x,y,z)") = .ok (some (.mk (.select [.lit (some (.int 1)) (.simple .integer)] (some (.aliased (.mk (.table ⟨c% "c", (some (c% "b")), (some (c% "a")), []⟩) (c% "foo") [c% "x", c% "y", c% "z"]))) none none none false []) none none [] [])) := query_of_parserN 60 (by krfl)
-- test_relations.py 179
example : queryFromSql (c% "SELECT *") = .ok (some (.mk (.select [(.star none (.simple .unknown))] none none none none false []) none none [] [])) := query_of_parserN 60 (by krfl)
-- test_relations.py 183
example : queryFromSql (c% "SELECT a.*") = .ok (some (.mk (.select [(.star (some (c% "a")) (.simple .unknown))] none none none none false []) none none [] [])) := query_of_parserN 60 (by krfl)
-- test_relations.py 187
example : queryFromSql (c% "SELECT a.* AS (x,y,z)") = .ok (some (.mk (.select [(.aliasedStar (.star (some (c% "a")) (.simple .unknown)) [c% "x", c% "y", c% "z"])] none none none none false []) none none [] [])) := query_of_parserN 60 (by krfl)
-- test_relations.py 194
example : queryFromSql (c% "SELECT 1+2+3") = .ok (some (.mk (.select [(.bin .add (.bin .add (.lit (some (.int (1))) (.simple .integer)) (.lit (some (.int (2))) (.simple .integer))) (.lit (some (.int (3))) (.simple .integer)))] none none none none false []) none none [] [])) := query_of_parserN 60 (by krfl)
-- test_relations.py 206
example : queryFromSql (c% "SELECT a") = .ok (some (.mk (.select [(.field (c% "a") none (.simple .unknown))] none none none none false []) none none [] [])) := query_of_parserN 60 (by krfl)
-- test_relations.py 210
example : queryFromSql (c% "SELECT a AS foo") = .ok (some (.mk (.select [(.alias (.field (c% "a") none (.simple .unknown)) (c% "foo"))] none none none none false []) none none [] [])) := query_of_parserN 60 (by krfl)
-- test_relations.py 221
example : queryFromSql (c% "SELECT tbl.a") = .ok (some (.mk (.select [(.field (c% "a") (some (c% "tbl")) (.simple .unknown))] none none none none false []) none none [] [])) := query_of_parserN 60 (by krfl)
-- test_relations.py 226
example : queryFromSql (c% "SELECT tbl.a FROM tbl") = .ok (some (.mk (.select [(.field (c% "a") (some (c% "tbl")) (.simple .unknown))] (some (.table ⟨c% "tbl", none, none, []⟩)) none none none false []) none none [] [])) := query_of_parserN 60 (by krfl)
-- test_relations.py 231
example : queryFromSql (c% "SELECT tbl.a FROM tbl WHERE tbl.a > 5") = .ok (some (.mk (.select [(.field (c% "a") (some (c% "tbl")) (.simple .unknown))] (some (.table ⟨c% "tbl", none, none, []⟩)) (some (.bin .gt (.field (c% "a") (some (c% "tbl")) (.simple .unknown)) (.lit (some (.int (5))) (.simple .integer)))) none none false []) none none [] [])) := query_of_parserN 60 (by krfl)
-- test_relations.py 239
example : queryFromSql (c% "SELECT tbl.a FROM tbl WHERE tbl.a > 5 GROUP BY date") = .ok (some (.mk (.select [(.field (c% "a") (some (c% "tbl")) (.simple .unknown))] (some (.table ⟨c% "tbl", none, none, []⟩)) (some (.bin .gt (.field (c% "a") (some (c% "tbl")) (.simple .unknown)) (.lit (some (.int (5))) (.simple .integer)))) (some (.mk [(.set [(.field (c% "date") none (.simple .unknown))])] false)) none false []) none none [] [])) := query_of_parserN 60 (by krfl)
-- test_relations.py 246
example : queryFromSql (c% "SELECT tbl.a FROM tbl WHERE tbl.a > 5 GROUP BY date ORDER BY tbl.a ASC") = .ok (some (.mk (.select [(.field (c% "a") (some (c% "tbl")) (.simple .unknown))] (some (.table ⟨c% "tbl", none, none, []⟩)) (some (.bin .gt (.field (c% "a") (some (c% "tbl")) (.simple .unknown)) (.lit (some (.int (5))) (.simple .integer)))) (some (.mk [(.set [(.field (c% "date") none (.simple .unknown))])] false)) none false []) none none [(.mk (.field (c% "a") (some (c% "tbl")) (.simple .unknown)) false false)] [])) := query_of_parserN 60 (by krfl)
-- test_relations.py 253
example : queryFromSql (c% "SELECT tbl.a FROM tbl WHERE tbl.a > 5 GROUP BY date WINDOW w AS (PARTITION BY tbl.a) ORDER BY tbl.a ASC") = .ok (some (.mk (.select [(.field (c% "a") (some (c% "tbl")) (.simple .unknown))] (some (.table ⟨c% "tbl", none, none, []⟩)) (some (.bin .gt (.field (c% "a") (some (c% "tbl")) (.simple .unknown)) (.lit (some (.int (5))) (.simple .integer)))) (some (.mk [(.set [(.field (c% "date") none (.simple .unknown))])] false)) none false [(c% "w", (.mk none [] [(.field (c% "a") (some (c% "tbl")) (.simple .unknown))] .range (.unbounded .preceding) .current))]) none none [(.mk (.field (c% "a") (some (c% "tbl")) (.simple .unknown)) false false)] [])) := query_of_parserN 60 (by krfl)
-- test_relations.py 260
example : queryFromSql (c% "TABLE foo.bar") = .ok (some (.mk (.table ⟨c% "bar", (some (c% "foo")), none, []⟩) none none [] [])) := query_of_parserN 60 (by krfl)
-- test_relations.py 267
example : queryFromSql (c% "VALUES 1,2,3") = .ok (some (.mk (.values [(.lit (some (.int (1))) (.simple .integer)), (.lit (some (.int (2))) (.simple .integer)), (.lit (some (.int (3))) (.simple .integer))]) none none [] [])) := query_of_parserN 60 (by krfl)
-- test_relations.py 276
example : queryFromSql (c% "SELECT 1, foo") = .ok (some (.mk (.select [(.lit (some (.int (1))) (.simple .integer)), (.field (c% "foo") none (.simple .unknown))] none none none none false []) none none [] [])) := query_of_parserN 60 (by krfl)
-- test_relations.py 288
example : queryFromSql (c% "SELECT 1 INTERSECT SELECT 2") = .ok (some (.mk (.set .intersect (.mk (.select [(.lit (some (.int (1))) (.simple .integer))] none none none none false []) none none [] []) (.mk (.select [(.lit (some (.int (2))) (.simple .integer))] none none none none false []) none none [] []) true) none none [] [])) := query_of_parserN 60 (by krfl)
-- test_relations.py 290
example : queryFromSql (c% "SELECT 1 INTERSECT DISTINCT SELECT 2") = .ok (some (.mk (.set .intersect (.mk (.select [(.lit (some (.int (1))) (.simple .integer))] none none none none false []) none none [] []) (.mk (.select [(.lit (some (.int (2))) (.simple .integer))] none none none none false []) none none [] []) true) none none [] [])) := query_of_parserN 60 (by krfl)
-- test_relations.py 292
example : queryFromSql (c% "SELECT 1 INTERSECT ALL SELECT 2") = .error .assertion := query_of_parserN (x := .error .assertion) 60 (by krfl)
-- test_relations.py 303
example : queryFromSql (c% "SELECT 1 EXCEPT SELECT 2") = .ok (some (.mk (.set .except (.mk (.select [(.lit (some (.int (1))) (.simple .integer))] none none none none false []) none none [] []) (.mk (.select [(.lit (some (.int (2))) (.simple .integer))] none none none none false []) none none [] []) true) none none [] [])) := query_of_parserN 60 (by krfl)
-- test_relations.py 305
example : queryFromSql (c% "SELECT 1 EXCEPT DISTINCT SELECT 2") = .ok (some (.mk (.set .except (.mk (.select [(.lit (some (.int (1))) (.simple .integer))] none none none none false []) none none [] []) (.mk (.select [(.lit (some (.int (2))) (.simple .integer))] none none none none false []) none none [] []) true) none none [] [])) := query_of_parserN 60 (by krfl)
-- test_relations.py 307
example : queryFromSql (c% "SELECT 1 EXCEPT ALL SELECT 2") = .error .assertion := query_of_parserN (x := .error .assertion) 60 (by krfl)
-- test_relations.py 316
example : queryFromSql (c% "SELECT 1 UNION SELECT 2") = .ok (some (.mk (.set .union (.mk (.select [(.lit (some (.int (1))) (.simple .integer))] none none none none false []) none none [] []) (.mk (.select [(.lit (some (.int (2))) (.simple .integer))] none none none none false []) none none [] []) true) none none [] [])) := query_of_parserN 60 (by krfl)
-- test_relations.py 318
example : queryFromSql (c% "SELECT 1 UNION DISTINCT SELECT 2") = .ok (some (.mk (.set .union (.mk (.select [(.lit (some (.int (1))) (.simple .integer))] none none none none false []) none none [] []) (.mk (.select [(.lit (some (.int (2))) (.simple .integer))] none none none none false []) none none [] []) true) none none [] [])) := query_of_parserN 60 (by krfl)
-- test_relations.py 320
example : queryFromSql (c% "SELECT 1 UNION ALL SELECT 2") = .ok (some (.mk (.set .union (.mk (.select [(.lit (some (.int (1))) (.simple .integer))] none none none none false []) none none [] []) (.mk (.select [(.lit (some (.int (2))) (.simple .integer))] none none none none false []) none none [] []) false) none none [] [])) := query_of_parserN 60 (by krfl)
-- test_session_functions.py 16
example : expressionFromSql (c% "CURRENT_USER") = .ok (.session .currentUser) := expr_of_parserN 60 (by krfl)
-- test_session_functions.py 20
example : expressionFromSql (c% "CURRENT_CATALOG") = .ok (.session .currentCatalog) := expr_of_parserN 60 (by krfl)
-- test_session_functions.py 24
example : expressionFromSql (c% "CURRENT_SCHEMA") = .ok (.session .currentSchema) := expr_of_parserN 60 (by krfl)
-- test_session_functions.py 28
example : expressionFromSql (c% "CURRENT_PATH") = .ok (.session .currentPath) := expr_of_parserN 60 (by krfl)
-- test_string_functions.py 27
example : expressionFromSql (c% "NORMALIZE(x)") = .ok (.normalize (.field (c% "x") none (.simple .unknown)) none) := expr_of_parserN 60 (by krfl)
-- test_string_functions.py 31
example : expressionFromSql (c% "NORMALIZE(x, NFD)") = .ok (.normalize (.field (c% "x") none (.simple .unknown)) (some .nfd)) := expr_of_parserN 60 (by krfl)
-- test_string_functions.py 37
example : expressionFromSql (c% "NORMALIZE(x, NFKC)") = .ok (.normalize (.field (c% "x") none (.simple .unknown)) (some .nfkc)) := expr_of_parserN 60 (by krfl)
-- test_string_functions.py 44
example : expressionFromSql (c% "REPLACE(x, y)") = .ok (.func .replace [(.field (c% "x") none (.simple .unknown)), (.field (c% "y") none (.simple .unknown))]) := expr_of_parserN 60 (by krfl)
-- test_string_functions.py 50
example : expressionFromSql (c% "REPLACE(x, y, z)") = .ok (.func .replace [(.field (c% "x") none (.simple .unknown)), (.field (c% "y") none (.simple .unknown)), (.field (c% "z") none (.simple .unknown))]) := expr_of_parserN 60 (by krfl)
-- test_string_functions.py 57
example : expressionFromSql (c% "CHR(x)") = .ok (.func .chr [(.field (c% "x") none (.simple .unknown))]) := expr_of_parserN 60 (by krfl)
-- test_string_functions.py 61
example : expressionFromSql (c% "CODEPOINT(x)") = .ok (.func .codepoint [(.field (c% "x") none (.simple .unknown))]) := expr_of_parserN 60 (by krfl)
-- test_string_functions.py 65
example : expressionFromSql (c% "HAMMING_DISTANCE(x, y)") = .ok (.func .hammingDistance [(.field (c% "x") none (.simple .unknown)), (.field (c% "y") none (.simple .unknown))]) := expr_of_parserN 60 (by krfl)
-- test_string_functions.py 71
example : expressionFromSql (c% "LENGTH(x)") = .ok (.func .length [(.field (c% "x") none (.simple .unknown))]) := expr_of_parserN 60 (by krfl)
-- test_string_functions.py 75
example : expressionFromSql (c% "LEVENSHTEIN_DISTANCE(x, y)") = .ok (.func .levenshteinDistance [(.field (c% "x") none (.simple .unknown)), (.field (c% "y") none (.simple .unknown))]) := expr_of_parserN 60 (by krfl)
-- test_string_functions.py 81
example : expressionFromSql (c% "LOWER(x)") = .ok (.func .lower [(.field (c% "x") none (.simple .unknown))]) := expr_of_parserN 60 (by krfl)
-- test_string_functions.py 85
example : expressionFromSql (c% "LPAD(x, y, z)") = .ok (.func .lpad [(.field (c% "x") none (.simple .unknown)), (.field (c% "y") none (.simple .unknown)), (.field (c% "z") none (.simple .unknown))]) := expr_of_parserN 60 (by krfl)
-- test_string_functions.py 91
example : expressionFromSql (c% "LTRIM(x)") = .ok (.func .ltrim [(.field (c% "x") none (.simple .unknown))]) := expr_of_parserN 60 (by krfl)
-- test_string_functions.py 95
example : expressionFromSql (c% "REVERSE(x)") = .ok (.func .reverse [(.field (c% "x") none (.simple .unknown))]) := expr_of_parserN 60 (by krfl)
-- test_string_functions.py 99
example : expressionFromSql (c% "RPAD(x, y, z)") = .ok (.func .rpad [(.field (c% "x") none (.simple .unknown)), (.field (c% "y") none (.simple .unknown)), (.field (c% "z") none (.simple .unknown))]) := expr_of_parserN 60 (by krfl)
-- test_string_functions.py 105
example : expressionFromSql (c% "RTRIM(x)") = .ok (.func .rtrim [(.field (c% "x") none (.simple .unknown))]) := expr_of_parserN 60 (by krfl)
-- test_string_functions.py 109
example : expressionFromSql (c% "SOUNDEX(x)") = .ok (.func .soundex [(.field (c% "x") none (.simple .unknown))]) := expr_of_parserN 60 (by krfl)
-- test_types.py 48
example : typeFromSql (c% "DECIMAL") = .ok (.decimal 38 0) := by krfl
-- test_types.py 53
example : typeFromSql (c% "DECIMAL(30)") = .ok (.decimal 30 0) := by krfl
-- test_types.py 58
example : typeFromSql (c% "DECIMAL(30, 10)") = .ok (.decimal 30 10) := by krfl
-- test_types.py 64
example : typeFromSql (c% "ROW(BIGINT, DECIMAL(30), VARCHAR)") = .ok (.row [(.simple .bigint), (.decimal 30 0), (.varchar none)]) := by krfl
-- test_types.py 70
example : typeFromSql (c% "INTERVAL YEAR TO MONTH") = .ok (.interval .yearToMonth) := by krfl
-- test_types.py 75
example : typeFromSql (c% "INTERVAL DAY TO SECOND") = .ok (.interval .dayToSecond) := by krfl
-- test_types.py 80
example : typeFromSql (c% "INTERVAL MONTH TO SECOND") = .error .assertion := by krfl
-- test_types.py 89
example : typeFromSql (c% "ARRAY(BIGINT)") = .ok (.array (.simple .bigint)) := by krfl
-- test_types.py 95
example : typeFromSql (c% "MAP(BIGINT, VARCHAR)") = .ok (.map (.simple .bigint) (.varchar none)) := by krfl
-- test_types.py 101
example : typeFromSql (c% "TIMESTAMP") = .ok (.timestamp none false) := by krfl
-- test_types.py 106
example : typeFromSql (c% "TIMESTAMP(9)") = .ok (.timestamp (some 9) false) := by krfl
-- test_types.py 111
example : typeFromSql (c% "TIMESTAMP WITH TIME ZONE") = .ok (.timestamp none true) := by krfl
-- test_types.py 116
example : typeFromSql (c% "TIMESTAMP(9) WITH TIME ZONE") = .ok (.timestamp (some 9) true) := by krfl
-- test_types.py 122
example : typeFromSql (c% "DOUBLE PRECISION") = .ok (.simple .double) := by krfl
-- test_window.py 28
example : queryFromSql (c% "SELECT 1 WINDOW w1 AS (w PARTITION BY a,b ORDER BY x ASC,y DESC NULLS FIRST GROUPS BETWEEN UNBOUNDED PRECEDING AND 5 FOLLOWING)") = .ok (some (.mk (.select [.lit (some (.int 1)) (.simple .integer)] none none none none false [(c% "w1", (.mk (some (c% "w")) [(.mk (.field (c% "x") none (.simple .unknown)) false false), (.mk (.field (c% "y") none (.simple .unknown)) true true)] [(.field (c% "a") none (.simple .unknown)), (.field (c% "b") none (.simple .unknown))] .groups (.unbounded .preceding) (.bounded .following (.lit (some (.int (5))) (.simple .integer)))))]) none none [] [])) := query_of_parserN 60 (by krfl)
-- test_window.py 51
example : queryFromSql (c% "SELECT 1 WINDOW w1 AS (ROWS CURRENT ROW)") = .ok (some (.mk (.select [.lit (some (.int 1)) (.simple .integer)] none none none none false [(c% "w1", (.mk none [] [] .rows .current .current))]) none none [] [])) := query_of_parserN 60 (by krfl)
-- test_window.py 59
example : queryFromSql (c% "SELECT 1 WINDOW w1 AS (RANGE BETWEEN 5 PRECEDING AND UNBOUNDED FOLLOWING)") = .ok (some (.mk (.select [.lit (some (.int 1)) (.simple .integer)] none none none none false [(c% "w1", (.mk none [] [] .range (.bounded .preceding (.lit (some (.int (5))) (.simple .integer))) (.unbounded .following)))]) none none [] [])) := query_of_parserN 60 (by krfl)
-- test_basic.py 33
example : expressionFromSql (c% "`foo`") = .error .notImplemented := expr_of_parserN (x := .error .notImplemented) 60 (by krfl)
-- test_basic.py 39
example : expressionFromSql (c% "12abc") = .error .notImplemented := expr_of_parserN (x := .error .notImplemented) 60 (by krfl)
-- test_types.py 22
example : typeFromSql (c% "BIGINT") = .ok (.simple .bigint) := by krfl
-- test_types.py 22
example : typeFromSql (c% "BOOLEAN") = .ok (.simple .boolean) := by krfl
-- test_types.py 22
example : typeFromSql (c% "TINYINT") = .ok (.simple .tinyint) := by krfl
-- test_types.py 22
example : typeFromSql (c% "SMALLINT") = .ok (.simple .smallint) := by krfl
-- test_types.py 22
example : typeFromSql (c% "INTEGER") = .ok (.simple .integer) := by krfl
-- test_types.py 22
example : typeFromSql (c% "REAL") = .ok (.simple .real) := by krfl
-- test_types.py 22
example : typeFromSql (c% "DOUBLE") = .ok (.simple .double) := by krfl
-- test_types.py 22
example : typeFromSql (c% "VARBINARY") = .ok (.simple .varbinary) := by krfl
-- test_types.py 22
example : typeFromSql (c% "JSON") = .ok (.simple .json) := by krfl
-- test_types.py 22
example : typeFromSql (c% "VARCHAR") = .ok (.varchar none) := by krfl
-- test_types.py 22
example : typeFromSql (c% "CHAR") = .ok (.char 1) := by krfl
-- test_types.py 22
example : typeFromSql (c% "DECIMAL") = .ok (.decimal 38 0) := by krfl

end Treeno.Conformance
