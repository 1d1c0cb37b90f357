import Verif.Py

/-!
# What SQL functions return

The documented result of the functions the library knows, by SQL name: a fixed type, given by its
SQL text, or the type of one of the arguments.  Written from the Trino documentation, not from the
code.
-/
set_option autoImplicit false
namespace Treeno.Spec

inductive Result
  /-- always this type -/
  | fixed (text : Str)
  /-- the type of an argument, counted from 0 -/
  | arg (i : Nat)

/-- Scalar functions. -/
def scalarResults : List (Str × Result) := [
  (c% "LENGTH", .fixed (c% "BIGINT")),
  (c% "HAMMING_DISTANCE", .fixed (c% "BIGINT")),
  (c% "LEVENSHTEIN_DISTANCE", .fixed (c% "BIGINT")),
  (c% "TO_MILLISECONDS", .fixed (c% "BIGINT")),
  (c% "DATE_DIFF", .fixed (c% "BIGINT")),
  (c% "CODEPOINT", .fixed (c% "INTEGER")),
  (c% "LUHN_CHECK", .fixed (c% "BOOLEAN")),
  (c% "POWER", .fixed (c% "DOUBLE")),
  (c% "TO_UNIXTIME", .fixed (c% "DOUBLE")),
  (c% "DATE", .fixed (c% "DATE")),
  (c% "LAST_DAY_OF_MONTH", .fixed (c% "DATE")),
  (c% "FROM_ISO8601_DATE", .fixed (c% "DATE")),
  (c% "FROM_ISO8601_TIMESTAMP", .fixed (c% "TIMESTAMP(3) WITH TIME ZONE")),
  (c% "FROM_ISO8601_TIMESTAMP_NANOS", .fixed (c% "TIMESTAMP(9) WITH TIME ZONE")),
  (c% "FROM_UNIXTIME_NANOS", .fixed (c% "TIMESTAMP(9) WITH TIME ZONE")),
  (c% "FROM_UNIXTIME", .fixed (c% "TIMESTAMP(3) WITH TIME ZONE")),
  (c% "NOW", .fixed (c% "TIMESTAMP(3) WITH TIME ZONE")),
  (c% "PARSE_DURATION", .fixed (c% "INTERVAL DAY TO SECOND")),
  (c% "TO_ISO8601", .fixed (c% "VARCHAR")),
  (c% "HUMAN_READABLE_SECONDS", .fixed (c% "VARCHAR")),
  (c% "CHR", .fixed (c% "VARCHAR")),
  (c% "LOWER", .fixed (c% "VARCHAR")),
  (c% "LPAD", .fixed (c% "VARCHAR")),
  (c% "RPAD", .fixed (c% "VARCHAR")),
  (c% "LTRIM", .fixed (c% "VARCHAR")),
  (c% "RTRIM", .fixed (c% "VARCHAR")),
  (c% "REPLACE", .fixed (c% "VARCHAR")),
  (c% "REVERSE", .fixed (c% "VARCHAR")),
  (c% "SOUNDEX", .fixed (c% "VARCHAR")),
  (c% "FROM_UTF8", .fixed (c% "VARCHAR")),
  (c% "TO_UTF8", .fixed (c% "VARBINARY")),
  (c% "DATE_TRUNC", .arg 1),
  (c% "DATE_ADD", .arg 2),
  (c% "NULLIF", .arg 0),
  (c% "TRY", .arg 0)]

/-- Aggregate functions. -/
def aggregateResults : List (Str × Result) := [
  (c% "ARBITRARY", .arg 0),
  (c% "MAP_UNION", .arg 0),
  (c% "GEOMETRIC_MEAN", .fixed (c% "DOUBLE")),
  (c% "CORR", .fixed (c% "DOUBLE")),
  (c% "COVAR_POP", .fixed (c% "DOUBLE")),
  (c% "COVAR_SAMP", .fixed (c% "DOUBLE")),
  (c% "KURTOSIS", .fixed (c% "DOUBLE")),
  (c% "REGR_INTERCEPT", .fixed (c% "DOUBLE")),
  (c% "REGR_SLOPE", .fixed (c% "DOUBLE")),
  (c% "SKEWNESS", .fixed (c% "DOUBLE")),
  (c% "STDDEV", .fixed (c% "DOUBLE")),
  (c% "STDDEV_POP", .fixed (c% "DOUBLE")),
  (c% "STDDEV_SAMP", .fixed (c% "DOUBLE")),
  (c% "VARIANCE", .fixed (c% "DOUBLE")),
  (c% "VAR_POP", .fixed (c% "DOUBLE")),
  (c% "VAR_SAMP", .fixed (c% "DOUBLE")),
  (c% "BOOL_AND", .fixed (c% "BOOLEAN")),
  (c% "BOOL_OR", .fixed (c% "BOOLEAN")),
  (c% "EVERY", .fixed (c% "BOOLEAN")),
  (c% "CHECKSUM", .fixed (c% "VARBINARY")),
  (c% "COUNT", .fixed (c% "BIGINT")),
  (c% "COUNT_IF", .fixed (c% "BIGINT")),
  (c% "APPROX_DISTINCT", .fixed (c% "BIGINT")),
  (c% "BITWISE_AND_AGG", .fixed (c% "BIGINT")),
  (c% "BITWISE_OR_AGG", .fixed (c% "BIGINT")),
  (c% "APPROX_SET", .fixed (c% "HYPERLOGLOG")),
  (c% "TDIGEST_AGG", .fixed (c% "TDIGEST")),
  (c% "NUMERIC_HISTOGRAM", .fixed (c% "MAP(DOUBLE,DOUBLE)"))]

/-- The functions documented above whose documented result the library does not compute. -/
def undocumented : List Str := [
  c% "FROM_UNIXTIME", c% "SKEWNESS", c% "STDDEV", c% "STDDEV_POP", c% "STDDEV_SAMP", c% "VARIANCE",
  c% "VAR_POP", c% "VAR_SAMP"]

/-- A type is the documented result for arguments of the given types, where `text` prints a type. -/
def isResult {τ : Type} (text : τ → Str) (args : List τ) (t : τ) : Result → Prop
  | .fixed s => text t = s
  | .arg i => args[i]? = some t

end Treeno.Spec
