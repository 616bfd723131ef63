import Verif.Base

/-
Tables of /repo/internal/postgres, transcribed entry by entry:
oid/types.go (object identifiers, array types, zero values), compatibility.go:57-727 (the
compatibility table), enums.go:80-103 (operator names), and the list of the exported one-argument
functions of /repo/pgsql.
-/
namespace Verif.Postgres

/-! ### oid/types.go:5-103 -/
namespace Oid
abbrev anyType : Nat := 2276
abbrev bit : Nat := 1560
abbrev bitArr : Nat := 1561
abbrev bool : Nat := 16
abbrev boolArr : Nat := 1000
abbrev box : Nat := 603
abbrev boxArr : Nat := 1020
abbrev bpchar : Nat := 1042
abbrev bpcharArr : Nat := 1014
abbrev bytea : Nat := 17
abbrev byteaArr : Nat := 1001
abbrev char : Nat := 18
abbrev charArr : Nat := 1002
abbrev cidr : Nat := 650
abbrev cidrArr : Nat := 651
abbrev circle : Nat := 718
abbrev circleArr : Nat := 719
abbrev date : Nat := 1082
abbrev dateArr : Nat := 1182
abbrev dateRange : Nat := 3912
abbrev dateRangeArr : Nat := 3913
abbrev float4 : Nat := 700
abbrev float4Arr : Nat := 1021
abbrev float8 : Nat := 701
abbrev float8Arr : Nat := 1022
abbrev inet : Nat := 869
abbrev inetArr : Nat := 1041
abbrev int2 : Nat := 21
abbrev int2Arr : Nat := 1005
abbrev int2Vector : Nat := 22
abbrev int2VectorArr : Nat := 1006
abbrev int4 : Nat := 23
abbrev int4Arr : Nat := 1007
abbrev int4Range : Nat := 3904
abbrev int4RangeArr : Nat := 3905
abbrev int8 : Nat := 20
abbrev int8Arr : Nat := 1016
abbrev int8Range : Nat := 3926
abbrev int8RangeArr : Nat := 3927
abbrev interval : Nat := 1186
abbrev intervalArr : Nat := 1187
abbrev json : Nat := 114
abbrev jsonArr : Nat := 199
abbrev jsonb : Nat := 3802
abbrev jsonbArr : Nat := 3807
abbrev line : Nat := 628
abbrev lineArr : Nat := 629
abbrev lseg : Nat := 601
abbrev lsegArr : Nat := 1018
abbrev macaddr : Nat := 829
abbrev macaddrArr : Nat := 1040
abbrev macaddr8 : Nat := 774
abbrev macaddr8Arr : Nat := 775
abbrev money : Nat := 790
abbrev moneyArr : Nat := 791
abbrev numeric : Nat := 1700
abbrev numericArr : Nat := 1231
abbrev numRange : Nat := 3906
abbrev numRangeArr : Nat := 3907
abbrev oidvector : Nat := 30
abbrev path : Nat := 602
abbrev pathArr : Nat := 1019
abbrev point : Nat := 600
abbrev pointArr : Nat := 1017
abbrev polygon : Nat := 604
abbrev polygonArr : Nat := 1027
abbrev text : Nat := 25
abbrev textArr : Nat := 1009
abbrev time : Nat := 1083
abbrev timeArr : Nat := 1183
abbrev timestamp : Nat := 1114
abbrev timestampArr : Nat := 1115
abbrev timestamptz : Nat := 1184
abbrev timestamptzArr : Nat := 1185
abbrev timetz : Nat := 1266
abbrev timetzArr : Nat := 1270
abbrev tsquery : Nat := 3615
abbrev tsqueryArr : Nat := 3645
abbrev tsrange : Nat := 3908
abbrev tsrangeArr : Nat := 3909
abbrev tstzrange : Nat := 3910
abbrev tstzrangeArr : Nat := 3911
abbrev tsvector : Nat := 3614
abbrev tsvectorArr : Nat := 3643
abbrev uuid : Nat := 2950
abbrev uuidArr : Nat := 2951
abbrev unknown : Nat := 705
abbrev varbit : Nat := 1562
abbrev varbitArr : Nat := 1563
abbrev varchar : Nat := 1043
abbrev varcharArr : Nat := 1015
abbrev xml : Nat := 142
abbrev xmlArr : Nat := 143
end Oid

/-- oid/types.go:105-152 TypeToArray. -/
def typeToArray : List (Nat × Nat) := [
  (Oid.bit, Oid.bitArr),
  (Oid.bool, Oid.boolArr),
  (Oid.box, Oid.boxArr),
  (Oid.bpchar, Oid.bpcharArr),
  (Oid.bytea, Oid.byteaArr),
  (Oid.char, Oid.charArr),
  (Oid.cidr, Oid.cidrArr),
  (Oid.circle, Oid.circleArr),
  (Oid.date, Oid.dateArr),
  (Oid.dateRange, Oid.dateRangeArr),
  (Oid.float4, Oid.float4Arr),
  (Oid.float8, Oid.float8Arr),
  (Oid.inet, Oid.inetArr),
  (Oid.int2, Oid.int2Arr),
  (Oid.int2Vector, Oid.int2VectorArr),
  (Oid.int4, Oid.int4Arr),
  (Oid.int4Range, Oid.int4RangeArr),
  (Oid.int8, Oid.int8Arr),
  (Oid.int8Range, Oid.int8RangeArr),
  (Oid.interval, Oid.intervalArr),
  (Oid.json, Oid.jsonArr),
  (Oid.jsonb, Oid.jsonbArr),
  (Oid.line, Oid.lineArr),
  (Oid.lseg, Oid.lsegArr),
  (Oid.macaddr, Oid.macaddrArr),
  (Oid.macaddr8, Oid.macaddr8Arr),
  (Oid.money, Oid.moneyArr),
  (Oid.numeric, Oid.numericArr),
  (Oid.numRange, Oid.numRangeArr),
  (Oid.path, Oid.pathArr),
  (Oid.point, Oid.pointArr),
  (Oid.polygon, Oid.polygonArr),
  (Oid.text, Oid.textArr),
  (Oid.time, Oid.timeArr),
  (Oid.timestamp, Oid.timestampArr),
  (Oid.timestamptz, Oid.timestamptzArr),
  (Oid.timetz, Oid.timetzArr),
  (Oid.tsquery, Oid.tsqueryArr),
  (Oid.tsrange, Oid.tsrangeArr),
  (Oid.tstzrange, Oid.tstzrangeArr),
  (Oid.tsvector, Oid.tsvectorArr),
  (Oid.uuid, Oid.uuidArr),
  (Oid.varbit, Oid.varbitArr),
  (Oid.varchar, Oid.varcharArr),
  (Oid.xml, Oid.xmlArr)]

/-- oid/types.go:154-201 ArrayToElem. -/
def arrayToElem : List (Nat × Nat) := [
  (Oid.bitArr, Oid.bit),
  (Oid.boolArr, Oid.bool),
  (Oid.boxArr, Oid.box),
  (Oid.bpcharArr, Oid.bpchar),
  (Oid.byteaArr, Oid.bytea),
  (Oid.charArr, Oid.char),
  (Oid.cidrArr, Oid.cidr),
  (Oid.circleArr, Oid.circle),
  (Oid.dateArr, Oid.date),
  (Oid.dateRangeArr, Oid.dateRange),
  (Oid.float4Arr, Oid.float4),
  (Oid.float8Arr, Oid.float8),
  (Oid.inetArr, Oid.inet),
  (Oid.int2Arr, Oid.int2),
  (Oid.int2VectorArr, Oid.int2Vector),
  (Oid.int4Arr, Oid.int4),
  (Oid.int4RangeArr, Oid.int4Range),
  (Oid.int8Arr, Oid.int8),
  (Oid.int8RangeArr, Oid.int8Range),
  (Oid.intervalArr, Oid.interval),
  (Oid.jsonArr, Oid.json),
  (Oid.jsonbArr, Oid.jsonb),
  (Oid.lineArr, Oid.line),
  (Oid.lsegArr, Oid.lseg),
  (Oid.macaddrArr, Oid.macaddr),
  (Oid.macaddr8Arr, Oid.macaddr8),
  (Oid.moneyArr, Oid.money),
  (Oid.numericArr, Oid.numeric),
  (Oid.numRangeArr, Oid.numRange),
  (Oid.pathArr, Oid.path),
  (Oid.pointArr, Oid.point),
  (Oid.polygonArr, Oid.polygon),
  (Oid.textArr, Oid.text),
  (Oid.timeArr, Oid.time),
  (Oid.timestampArr, Oid.timestamp),
  (Oid.timestamptzArr, Oid.timestamptz),
  (Oid.timetzArr, Oid.timetz),
  (Oid.tsqueryArr, Oid.tsquery),
  (Oid.tsrangeArr, Oid.tsrange),
  (Oid.tstzrangeArr, Oid.tstzrange),
  (Oid.tsvectorArr, Oid.tsvector),
  (Oid.uuidArr, Oid.uuid),
  (Oid.varbitArr, Oid.varbit),
  (Oid.varcharArr, Oid.varchar),
  (Oid.xmlArr, Oid.xml)]

/-- oid/types.go:203-296 TypeToZeroValue. -/
def typeToZeroValue : List (Nat × Bytes) := [
  (Oid.bit, b!"'0'"),
  (Oid.bitArr, b!"'{}'"),
  (Oid.bool, b!"false"),
  (Oid.boolArr, b!"'{}'"),
  (Oid.box, b!"'(0,0),(0,0)'"),
  (Oid.boxArr, b!"'{}'"),
  (Oid.bpchar, b!"''"),
  (Oid.bpcharArr, b!"'{}'"),
  (Oid.bytea, b!"'\\x'"),
  (Oid.byteaArr, b!"'{}'"),
  (Oid.char, b!"''"),
  (Oid.charArr, b!"'{}'"),
  (Oid.cidr, b!"'0.0.0.0/0'"),
  (Oid.cidrArr, b!"'{}'"),
  (Oid.circle, b!"'<(0,0),0>'"),
  (Oid.circleArr, b!"'{}'"),
  (Oid.date, b!"'0001-01-01'"),
  (Oid.dateArr, b!"'{}'"),
  (Oid.dateRange, b!"'(,)'"),
  (Oid.dateRangeArr, b!"'{}'"),
  (Oid.float4, b!"0"),
  (Oid.float4Arr, b!"'{}'"),
  (Oid.float8, b!"0"),
  (Oid.float8Arr, b!"'{}'"),
  (Oid.inet, b!"'0.0.0.0'"),
  (Oid.inetArr, b!"'{}'"),
  (Oid.int2, b!"0"),
  (Oid.int2Arr, b!"'{}'"),
  (Oid.int2Vector, b!"''"),
  (Oid.int2VectorArr, b!"'{}'"),
  (Oid.int4, b!"0"),
  (Oid.int4Arr, b!"'{}'"),
  (Oid.int4Range, b!"'(,)'"),
  (Oid.int4RangeArr, b!"'{}'"),
  (Oid.int8, b!"0"),
  (Oid.int8Arr, b!"'{}'"),
  (Oid.int8Range, b!"'(,)'"),
  (Oid.int8RangeArr, b!"'{}'"),
  (Oid.interval, b!"'00:00:00'"),
  (Oid.intervalArr, b!"'{}'"),
  (Oid.json, b!"'null'"),
  (Oid.jsonArr, b!"'{}'"),
  (Oid.jsonb, b!"'null'"),
  (Oid.jsonbArr, b!"'{}'"),
  (Oid.lineArr, b!"'{}'"),
  (Oid.lseg, b!"[(0,0),(0,0)]"),
  (Oid.lsegArr, b!"'{}'"),
  (Oid.macaddr, b!"'00:00:00:00:00:00'"),
  (Oid.macaddrArr, b!"'{}'"),
  (Oid.macaddr8, b!"'00:00:00:00:00:00:00:00'"),
  (Oid.macaddr8Arr, b!"'{}'"),
  (Oid.money, b!"0"),
  (Oid.moneyArr, b!"'{}'"),
  (Oid.numeric, b!"0"),
  (Oid.numericArr, b!"'{}'"),
  (Oid.numRange, b!"'(,)'"),
  (Oid.numRangeArr, b!"'{}'"),
  (Oid.oidvector, b!"''"),
  (Oid.path, b!"'((0,0))'"),
  (Oid.pathArr, b!"'{}'"),
  (Oid.point, b!"'(0,0)'"),
  (Oid.pointArr, b!"'{}'"),
  (Oid.polygon, b!"'((0,0))'"),
  (Oid.polygonArr, b!"'{}'"),
  (Oid.text, b!"''"),
  (Oid.textArr, b!"'{}'"),
  (Oid.time, b!"'00:00:00'"),
  (Oid.timeArr, b!"'{}'"),
  (Oid.timestamp, b!"'0001-01-01 00:00:00'"),
  (Oid.timestampArr, b!"'{}'"),
  (Oid.timestamptz, b!"'0001-01-01 00:00:00'"),
  (Oid.timestamptzArr, b!"'{}'"),
  (Oid.timetz, b!"'00:00:00+00'"),
  (Oid.timetzArr, b!"'{}'"),
  (Oid.tsquery, b!"''"),
  (Oid.tsqueryArr, b!"'{}'"),
  (Oid.tsrange, b!"'(,)'"),
  (Oid.tsrangeArr, b!"'{}'"),
  (Oid.tstzrange, b!"'(,)'"),
  (Oid.tstzrangeArr, b!"'{}'"),
  (Oid.tsvector, b!"''"),
  (Oid.tsvectorArr, b!"'{}'"),
  (Oid.uuid, b!"'00000000-0000-0000-0000-000000000000'"),
  (Oid.uuidArr, b!"'{}'"),
  (Oid.varbit, b!"''"),
  (Oid.varbitArr, b!"'{}'"),
  (Oid.varchar, b!"''"),
  (Oid.varcharArr, b!"'{}'"),
  (Oid.xml, b!"''"),
  (Oid.xmlArr, b!"'{}'")]

/-- compatibility.go:13-16 compentry; the empty name is "no conversion". -/
structure CompEntry where
  valuer : Bytes := []
  scanner : Bytes := []
deriving Repr, DecidableEq

/-- One row of the table: a type, whether its length is one, a Go type literal and the converters. -/
structure CompRow where
  oid : Nat
  typmod1 : Bool := false
  lit : Bytes
  entry : CompEntry := {}
deriving Repr, DecidableEq

/-! compatibility.go:57-727, split into parts only to keep the terms small. -/
def compRows0 : List CompRow := [
  { oid := Oid.bit, typmod1 := true, lit := b!"bool", entry := { valuer := b!"BitFromBool" } },
  { oid := Oid.bit, typmod1 := true, lit := b!"uint" },
  { oid := Oid.bit, typmod1 := true, lit := b!"uint8" },
  { oid := Oid.bit, typmod1 := true, lit := b!"string" },
  { oid := Oid.bit, typmod1 := true, lit := b!"[]byte" },
  { oid := Oid.bitArr, typmod1 := true, lit := b!"[]bool", entry := { valuer := b!"BitArrayFromBoolSlice", scanner := b!"BitArrayToBoolSlice" } },
  { oid := Oid.bitArr, typmod1 := true, lit := b!"[]uint", entry := { valuer := b!"BitArrayFromUintSlice", scanner := b!"BitArrayToUintSlice" } },
  { oid := Oid.bitArr, typmod1 := true, lit := b!"[]uint8", entry := { valuer := b!"BitArrayFromUint8Slice", scanner := b!"BitArrayToUint8Slice" } },
  { oid := Oid.bitArr, typmod1 := true, lit := b!"string" },
  { oid := Oid.bitArr, typmod1 := true, lit := b!"[]byte" },
  { oid := Oid.bpchar, typmod1 := true, lit := b!"byte", entry := { valuer := b!"BPCharFromByte", scanner := b!"BPCharToByte" } },
  { oid := Oid.bpchar, typmod1 := true, lit := b!"rune", entry := { valuer := b!"BPCharFromRune", scanner := b!"BPCharToRune" } },
  { oid := Oid.bpchar, typmod1 := true, lit := b!"string" },
  { oid := Oid.bpchar, typmod1 := true, lit := b!"[]byte" },
  { oid := Oid.bpcharArr, typmod1 := true, lit := b!"[]rune", entry := { valuer := b!"BPCharArrayFromRuneSlice", scanner := b!"BPCharArrayToRuneSlice" } },
  { oid := Oid.bpcharArr, typmod1 := true, lit := b!"[]string", entry := { valuer := b!"BPCharArrayFromStringSlice", scanner := b!"BPCharArrayToStringSlice" } },
  { oid := Oid.bpcharArr, typmod1 := true, lit := b!"string", entry := { valuer := b!"BPCharArrayFromString", scanner := b!"BPCharArrayToString" } },
  { oid := Oid.bpcharArr, typmod1 := true, lit := b!"[]byte", entry := { valuer := b!"BPCharArrayFromByteSlice", scanner := b!"BPCharArrayToByteSlice" } },
  { oid := Oid.char, typmod1 := true, lit := b!"byte", entry := { valuer := b!"CharFromByte", scanner := b!"CharToByte" } },
  { oid := Oid.char, typmod1 := true, lit := b!"rune", entry := { valuer := b!"CharFromRune", scanner := b!"CharToRune" } },
  { oid := Oid.char, typmod1 := true, lit := b!"string" },
  { oid := Oid.char, typmod1 := true, lit := b!"[]byte" },
  { oid := Oid.charArr, typmod1 := true, lit := b!"[]rune", entry := { valuer := b!"CharArrayFromRuneSlice", scanner := b!"CharArrayToRuneSlice" } },
  { oid := Oid.charArr, typmod1 := true, lit := b!"[]string", entry := { valuer := b!"CharArrayFromStringSlice", scanner := b!"CharArrayToStringSlice" } },
  { oid := Oid.charArr, typmod1 := true, lit := b!"string", entry := { valuer := b!"CharArrayFromString", scanner := b!"CharArrayToString" } },
  { oid := Oid.charArr, typmod1 := true, lit := b!"[]byte", entry := { valuer := b!"CharArrayFromByteSlice", scanner := b!"CharArrayToByteSlice" } },
  { oid := Oid.bool, lit := b!"bool" },
  { oid := Oid.bool, lit := b!"string" },
  { oid := Oid.bool, lit := b!"[]byte" },
  { oid := Oid.boolArr, lit := b!"[]bool", entry := { valuer := b!"BoolArrayFromBoolSlice", scanner := b!"BoolArrayToBoolSlice" } },
  { oid := Oid.boolArr, lit := b!"string" },
  { oid := Oid.boolArr, lit := b!"[]byte" },
  { oid := Oid.box, lit := b!"[2][2]float64", entry := { valuer := b!"BoxFromFloat64Array2Array2", scanner := b!"BoxToFloat64Array2Array2" } },
  { oid := Oid.box, lit := b!"string" },
  { oid := Oid.box, lit := b!"[]byte" },
  { oid := Oid.boxArr, lit := b!"[][2][2]float64", entry := { valuer := b!"BoxArrayFromFloat64Array2Array2Slice", scanner := b!"BoxArrayToFloat64Array2Array2Slice" } },
  { oid := Oid.boxArr, lit := b!"string" },
  { oid := Oid.boxArr, lit := b!"[]byte" },
  { oid := Oid.bytea, lit := b!"string" },
  { oid := Oid.bytea, lit := b!"[]byte" },
  { oid := Oid.byteaArr, lit := b!"[]string", entry := { valuer := b!"ByteaArrayFromStringSlice", scanner := b!"ByteaArrayToStringSlice" } },
  { oid := Oid.byteaArr, lit := b!"[][]byte", entry := { valuer := b!"ByteaArrayFromByteSliceSlice", scanner := b!"ByteaArrayToByteSliceSlice" } },
  { oid := Oid.byteaArr, lit := b!"string" },
  { oid := Oid.byteaArr, lit := b!"[]byte" },
  { oid := Oid.cidr, lit := b!"net.IPNet", entry := { valuer := b!"CIDRFromIPNet", scanner := b!"CIDRToIPNet" } },
  { oid := Oid.cidr, lit := b!"string" },
  { oid := Oid.cidr, lit := b!"[]byte" },
  { oid := Oid.cidrArr, lit := b!"[]net.IPNet", entry := { valuer := b!"CIDRArrayFromIPNetSlice", scanner := b!"CIDRArrayToIPNetSlice" } },
  { oid := Oid.cidrArr, lit := b!"string" },
  { oid := Oid.cidrArr, lit := b!"[]byte" },
  { oid := Oid.circle, lit := b!"string" },
  { oid := Oid.circle, lit := b!"[]byte" },
  { oid := Oid.circleArr, lit := b!"string" },
  { oid := Oid.circleArr, lit := b!"[]byte" },
  { oid := Oid.date, lit := b!"time.Time", entry := { scanner := b!"DateToTime" } },
  { oid := Oid.date, lit := b!"string", entry := { scanner := b!"DateToString" } },
  { oid := Oid.date, lit := b!"[]byte", entry := { scanner := b!"DateToByteSlice" } },
  { oid := Oid.dateArr, lit := b!"[]time.Time", entry := { valuer := b!"DateArrayFromTimeSlice", scanner := b!"DateArrayToTimeSlice" } },
  { oid := Oid.dateArr, lit := b!"string" },
  { oid := Oid.dateArr, lit := b!"[]byte" }]
def compRows1 : List CompRow := [
  { oid := Oid.dateRange, lit := b!"[2]time.Time", entry := { valuer := b!"DateRangeFromTimeArray2", scanner := b!"DateRangeToTimeArray2" } },
  { oid := Oid.dateRange, lit := b!"string" },
  { oid := Oid.dateRange, lit := b!"[]byte" },
  { oid := Oid.dateRangeArr, lit := b!"[][2]time.Time", entry := { valuer := b!"DateRangeArrayFromTimeArray2Slice", scanner := b!"DateRangeArrayToTimeArray2Slice" } },
  { oid := Oid.dateRangeArr, lit := b!"string" },
  { oid := Oid.dateRangeArr, lit := b!"[]byte" },
  { oid := Oid.float4, lit := b!"float32" },
  { oid := Oid.float4, lit := b!"float64" },
  { oid := Oid.float4, lit := b!"string" },
  { oid := Oid.float4, lit := b!"[]byte" },
  { oid := Oid.float4Arr, lit := b!"[]float32", entry := { valuer := b!"Float4ArrayFromFloat32Slice", scanner := b!"Float4ArrayToFloat32Slice" } },
  { oid := Oid.float4Arr, lit := b!"[]float64", entry := { valuer := b!"Float4ArrayFromFloat64Slice", scanner := b!"Float4ArrayToFloat64Slice" } },
  { oid := Oid.float4Arr, lit := b!"string" },
  { oid := Oid.float4Arr, lit := b!"[]byte" },
  { oid := Oid.float8, lit := b!"float32" },
  { oid := Oid.float8, lit := b!"float64" },
  { oid := Oid.float8, lit := b!"string" },
  { oid := Oid.float8, lit := b!"[]byte" },
  { oid := Oid.float8Arr, lit := b!"[]float32", entry := { valuer := b!"Float8ArrayFromFloat32Slice", scanner := b!"Float8ArrayToFloat32Slice" } },
  { oid := Oid.float8Arr, lit := b!"[]float64", entry := { valuer := b!"Float8ArrayFromFloat64Slice", scanner := b!"Float8ArrayToFloat64Slice" } },
  { oid := Oid.float8Arr, lit := b!"string" },
  { oid := Oid.float8Arr, lit := b!"[]byte" },
  { oid := Oid.inet, lit := b!"net.IP", entry := { valuer := b!"InetFromIP", scanner := b!"InetToIP" } },
  { oid := Oid.inet, lit := b!"net.IPNet", entry := { valuer := b!"InetFromIPNet", scanner := b!"InetToIPNet" } },
  { oid := Oid.inet, lit := b!"string" },
  { oid := Oid.inet, lit := b!"[]byte" },
  { oid := Oid.inetArr, lit := b!"[]net.IP", entry := { valuer := b!"InetArrayFromIPSlice", scanner := b!"InetArrayFromIPSlice" } },
  { oid := Oid.inetArr, lit := b!"[]net.IPNet", entry := { valuer := b!"InetArrayFromIPNetSlice", scanner := b!"InetArrayFromIPNetSlice" } },
  { oid := Oid.inetArr, lit := b!"string" },
  { oid := Oid.inetArr, lit := b!"[]byte" },
  { oid := Oid.int2, lit := b!"int" },
  { oid := Oid.int2, lit := b!"int8" },
  { oid := Oid.int2, lit := b!"int16" },
  { oid := Oid.int2, lit := b!"int32" },
  { oid := Oid.int2, lit := b!"int64" },
  { oid := Oid.int2, lit := b!"uint" },
  { oid := Oid.int2, lit := b!"uint8" },
  { oid := Oid.int2, lit := b!"uint16" },
  { oid := Oid.int2, lit := b!"uint32" },
  { oid := Oid.int2, lit := b!"uint64" },
  { oid := Oid.int2, lit := b!"float32" },
  { oid := Oid.int2, lit := b!"float64" },
  { oid := Oid.int2, lit := b!"string" },
  { oid := Oid.int2, lit := b!"[]byte" },
  { oid := Oid.int2Arr, lit := b!"[]int", entry := { valuer := b!"Int2ArrayFromIntSlice", scanner := b!"Int2ArrayToIntSlice" } },
  { oid := Oid.int2Arr, lit := b!"[]int8", entry := { valuer := b!"Int2ArrayFromInt8Slice", scanner := b!"Int2ArrayToInt8Slice" } },
  { oid := Oid.int2Arr, lit := b!"[]int16", entry := { valuer := b!"Int2ArrayFromInt16Slice", scanner := b!"Int2ArrayToInt16Slice" } },
  { oid := Oid.int2Arr, lit := b!"[]int32", entry := { valuer := b!"Int2ArrayFromInt32Slice", scanner := b!"Int2ArrayToInt32Slice" } },
  { oid := Oid.int2Arr, lit := b!"[]int64", entry := { valuer := b!"Int2ArrayFromInt64Slice", scanner := b!"Int2ArrayToInt64Slice" } },
  { oid := Oid.int2Arr, lit := b!"[]uint", entry := { valuer := b!"Int2ArrayFromUintSlice", scanner := b!"Int2ArrayToUintSlice" } },
  { oid := Oid.int2Arr, lit := b!"[]uint8", entry := { valuer := b!"Int2ArrayFromUint8Slice", scanner := b!"Int2ArrayToUint8Slice" } },
  { oid := Oid.int2Arr, lit := b!"[]uint16", entry := { valuer := b!"Int2ArrayFromUint16Slice", scanner := b!"Int2ArrayToUint16Slice" } },
  { oid := Oid.int2Arr, lit := b!"[]uint32", entry := { valuer := b!"Int2ArrayFromUint32Slice", scanner := b!"Int2ArrayToUint32Slice" } },
  { oid := Oid.int2Arr, lit := b!"[]uint64", entry := { valuer := b!"Int2ArrayFromUint64Slice", scanner := b!"Int2ArrayToUint64Slice" } },
  { oid := Oid.int2Arr, lit := b!"[]float32", entry := { valuer := b!"Int2ArrayFromFloat32Slice", scanner := b!"Int2ArrayToFloat32Slice" } },
  { oid := Oid.int2Arr, lit := b!"[]float64", entry := { valuer := b!"Int2ArrayFromFloat64Slice", scanner := b!"Int2ArrayToFloat64Slice" } },
  { oid := Oid.int2Arr, lit := b!"string" },
  { oid := Oid.int2Arr, lit := b!"[]byte" },
  { oid := Oid.int2Vector, lit := b!"[]int", entry := { valuer := b!"Int2VectorFromIntSlice", scanner := b!"Int2VectorToIntSlice" } },
  { oid := Oid.int2Vector, lit := b!"[]int8", entry := { valuer := b!"Int2VectorFromInt8Slice", scanner := b!"Int2VectorToInt8Slice" } }]
def compRows2 : List CompRow := [
  { oid := Oid.int2Vector, lit := b!"[]int16", entry := { valuer := b!"Int2VectorFromInt16Slice", scanner := b!"Int2VectorToInt16Slice" } },
  { oid := Oid.int2Vector, lit := b!"[]int32", entry := { valuer := b!"Int2VectorFromInt32Slice", scanner := b!"Int2VectorToInt32Slice" } },
  { oid := Oid.int2Vector, lit := b!"[]int64", entry := { valuer := b!"Int2VectorFromInt64Slice", scanner := b!"Int2VectorToInt64Slice" } },
  { oid := Oid.int2Vector, lit := b!"[]uint", entry := { valuer := b!"Int2VectorFromUintSlice", scanner := b!"Int2VectorToUintSlice" } },
  { oid := Oid.int2Vector, lit := b!"[]uint8", entry := { valuer := b!"Int2VectorFromUint8Slice", scanner := b!"Int2VectorToUint8Slice" } },
  { oid := Oid.int2Vector, lit := b!"[]uint16", entry := { valuer := b!"Int2VectorFromUint16Slice", scanner := b!"Int2VectorToUint16Slice" } },
  { oid := Oid.int2Vector, lit := b!"[]uint32", entry := { valuer := b!"Int2VectorFromUint32Slice", scanner := b!"Int2VectorToUint32Slice" } },
  { oid := Oid.int2Vector, lit := b!"[]uint64", entry := { valuer := b!"Int2VectorFromUint64Slice", scanner := b!"Int2VectorToUint64Slice" } },
  { oid := Oid.int2Vector, lit := b!"[]float32", entry := { valuer := b!"Int2VectorFromFloat32Slice", scanner := b!"Int2VectorToFloat32Slice" } },
  { oid := Oid.int2Vector, lit := b!"[]float64", entry := { valuer := b!"Int2VectorFromFloat64Slice", scanner := b!"Int2VectorToFloat64Slice" } },
  { oid := Oid.int2Vector, lit := b!"string" },
  { oid := Oid.int2Vector, lit := b!"[]byte" },
  { oid := Oid.int2VectorArr, lit := b!"[][]int", entry := { valuer := b!"Int2VectorArrayFromIntSliceSlice", scanner := b!"Int2VectorArrayToIntSliceSlice" } },
  { oid := Oid.int2VectorArr, lit := b!"[][]int8", entry := { valuer := b!"Int2VectorArrayFromInt8SliceSlice", scanner := b!"Int2VectorArrayToInt8SliceSlice" } },
  { oid := Oid.int2VectorArr, lit := b!"[][]int16", entry := { valuer := b!"Int2VectorArrayFromInt16SliceSlice", scanner := b!"Int2VectorArrayToInt16SliceSlice" } },
  { oid := Oid.int2VectorArr, lit := b!"[][]int32", entry := { valuer := b!"Int2VectorArrayFromInt32SliceSlice", scanner := b!"Int2VectorArrayToInt32SliceSlice" } },
  { oid := Oid.int2VectorArr, lit := b!"[][]int64", entry := { valuer := b!"Int2VectorArrayFromInt64SliceSlice", scanner := b!"Int2VectorArrayToInt64SliceSlice" } },
  { oid := Oid.int2VectorArr, lit := b!"[][]uint", entry := { valuer := b!"Int2VectorArrayFromUintSliceSlice", scanner := b!"Int2VectorArrayToUintSliceSlice" } },
  { oid := Oid.int2VectorArr, lit := b!"[][]uint8", entry := { valuer := b!"Int2VectorArrayFromUint8SliceSlice", scanner := b!"Int2VectorArrayToUint8SliceSlice" } },
  { oid := Oid.int2VectorArr, lit := b!"[][]uint16", entry := { valuer := b!"Int2VectorArrayFromUint16SliceSlice", scanner := b!"Int2VectorArrayToUint16SliceSlice" } },
  { oid := Oid.int2VectorArr, lit := b!"[][]uint32", entry := { valuer := b!"Int2VectorArrayFromUint32SliceSlice", scanner := b!"Int2VectorArrayToUint32SliceSlice" } },
  { oid := Oid.int2VectorArr, lit := b!"[][]uint64", entry := { valuer := b!"Int2VectorArrayFromUint64SliceSlice", scanner := b!"Int2VectorArrayToUint64SliceSlice" } },
  { oid := Oid.int2VectorArr, lit := b!"[][]float32", entry := { valuer := b!"Int2VectorArrayFromFloat32SliceSlice", scanner := b!"Int2VectorArrayToFloat32SliceSlice" } },
  { oid := Oid.int2VectorArr, lit := b!"[][]float64", entry := { valuer := b!"Int2VectorArrayFromFloat64SliceSlice", scanner := b!"Int2VectorArrayToFloat64SliceSlice" } },
  { oid := Oid.int2VectorArr, lit := b!"string" },
  { oid := Oid.int2VectorArr, lit := b!"[]byte" },
  { oid := Oid.int4, lit := b!"int" },
  { oid := Oid.int4, lit := b!"int8" },
  { oid := Oid.int4, lit := b!"int16" },
  { oid := Oid.int4, lit := b!"int32" },
  { oid := Oid.int4, lit := b!"int64" },
  { oid := Oid.int4, lit := b!"uint" },
  { oid := Oid.int4, lit := b!"uint8" },
  { oid := Oid.int4, lit := b!"uint16" },
  { oid := Oid.int4, lit := b!"uint32" },
  { oid := Oid.int4, lit := b!"uint64" },
  { oid := Oid.int4, lit := b!"float32" },
  { oid := Oid.int4, lit := b!"float64" },
  { oid := Oid.int4, lit := b!"string" },
  { oid := Oid.int4, lit := b!"[]byte" },
  { oid := Oid.int4Arr, lit := b!"[]int", entry := { valuer := b!"Int4ArrayFromIntSlice", scanner := b!"Int4ArrayToIntSlice" } },
  { oid := Oid.int4Arr, lit := b!"[]int8", entry := { valuer := b!"Int4ArrayFromInt8Slice", scanner := b!"Int4ArrayToInt8Slice" } },
  { oid := Oid.int4Arr, lit := b!"[]int16", entry := { valuer := b!"Int4ArrayFromInt16Slice", scanner := b!"Int4ArrayToInt16Slice" } },
  { oid := Oid.int4Arr, lit := b!"[]int32", entry := { valuer := b!"Int4ArrayFromInt32Slice", scanner := b!"Int4ArrayToInt32Slice" } },
  { oid := Oid.int4Arr, lit := b!"[]int64", entry := { valuer := b!"Int4ArrayFromInt64Slice", scanner := b!"Int4ArrayToInt64Slice" } },
  { oid := Oid.int4Arr, lit := b!"[]uint", entry := { valuer := b!"Int4ArrayFromUintSlice", scanner := b!"Int4ArrayToUintSlice" } },
  { oid := Oid.int4Arr, lit := b!"[]uint8", entry := { valuer := b!"Int4ArrayFromUint8Slice", scanner := b!"Int4ArrayToUint8Slice" } },
  { oid := Oid.int4Arr, lit := b!"[]uint16", entry := { valuer := b!"Int4ArrayFromUint16Slice", scanner := b!"Int4ArrayToUint16Slice" } },
  { oid := Oid.int4Arr, lit := b!"[]uint32", entry := { valuer := b!"Int4ArrayFromUint32Slice", scanner := b!"Int4ArrayToUint32Slice" } },
  { oid := Oid.int4Arr, lit := b!"[]uint64", entry := { valuer := b!"Int4ArrayFromUint64Slice", scanner := b!"Int4ArrayToUint64Slice" } },
  { oid := Oid.int4Arr, lit := b!"[]float32", entry := { valuer := b!"Int4ArrayFromFloat32Slice", scanner := b!"Int4ArrayToFloat32Slice" } },
  { oid := Oid.int4Arr, lit := b!"[]float64", entry := { valuer := b!"Int4ArrayFromFloat64Slice", scanner := b!"Int4ArrayToFloat64Slice" } },
  { oid := Oid.int4Arr, lit := b!"string" },
  { oid := Oid.int4Arr, lit := b!"[]byte" },
  { oid := Oid.int4Range, lit := b!"[2]int", entry := { valuer := b!"Int4RangeFromIntArray2", scanner := b!"Int4RangeToIntArray2" } },
  { oid := Oid.int4Range, lit := b!"[2]int8", entry := { valuer := b!"Int4RangeFromInt8Array2", scanner := b!"Int4RangeToInt8Array2" } },
  { oid := Oid.int4Range, lit := b!"[2]int16", entry := { valuer := b!"Int4RangeFromInt16Array2", scanner := b!"Int4RangeToInt16Array2" } },
  { oid := Oid.int4Range, lit := b!"[2]int32", entry := { valuer := b!"Int4RangeFromInt32Array2", scanner := b!"Int4RangeToInt32Array2" } },
  { oid := Oid.int4Range, lit := b!"[2]int64", entry := { valuer := b!"Int4RangeFromInt64Array2", scanner := b!"Int4RangeToInt64Array2" } },
  { oid := Oid.int4Range, lit := b!"[2]uint", entry := { valuer := b!"Int4RangeFromUintArray2", scanner := b!"Int4RangeToUintArray2" } }]
def compRows3 : List CompRow := [
  { oid := Oid.int4Range, lit := b!"[2]uint8", entry := { valuer := b!"Int4RangeFromUint8Array2", scanner := b!"Int4RangeToUint8Array2" } },
  { oid := Oid.int4Range, lit := b!"[2]uint16", entry := { valuer := b!"Int4RangeFromUint16Array2", scanner := b!"Int4RangeToUint16Array2" } },
  { oid := Oid.int4Range, lit := b!"[2]uint32", entry := { valuer := b!"Int4RangeFromUint32Array2", scanner := b!"Int4RangeToUint32Array2" } },
  { oid := Oid.int4Range, lit := b!"[2]uint64", entry := { valuer := b!"Int4RangeFromUint64Array2", scanner := b!"Int4RangeToUint64Array2" } },
  { oid := Oid.int4Range, lit := b!"[2]float32", entry := { valuer := b!"Int4RangeFromFloat32Array2", scanner := b!"Int4RangeToFloat32Array2" } },
  { oid := Oid.int4Range, lit := b!"[2]float64", entry := { valuer := b!"Int4RangeFromFloat64Array2", scanner := b!"Int4RangeToFloat64Array2" } },
  { oid := Oid.int4Range, lit := b!"string" },
  { oid := Oid.int4Range, lit := b!"[]byte" },
  { oid := Oid.int4RangeArr, lit := b!"[][2]int", entry := { valuer := b!"Int4RangeArrayFromIntArray2Slice", scanner := b!"Int4RangeArrayToIntArray2Slice" } },
  { oid := Oid.int4RangeArr, lit := b!"[][2]int8", entry := { valuer := b!"Int4RangeArrayFromInt8Array2Slice", scanner := b!"Int4RangeArrayToInt8Array2Slice" } },
  { oid := Oid.int4RangeArr, lit := b!"[][2]int16", entry := { valuer := b!"Int4RangeArrayFromInt16Array2Slice", scanner := b!"Int4RangeArrayToInt16Array2Slice" } },
  { oid := Oid.int4RangeArr, lit := b!"[][2]int32", entry := { valuer := b!"Int4RangeArrayFromInt32Array2Slice", scanner := b!"Int4RangeArrayToInt32Array2Slice" } },
  { oid := Oid.int4RangeArr, lit := b!"[][2]int64", entry := { valuer := b!"Int4RangeArrayFromInt64Array2Slice", scanner := b!"Int4RangeArrayToInt64Array2Slice" } },
  { oid := Oid.int4RangeArr, lit := b!"[][2]uint", entry := { valuer := b!"Int4RangeArrayFromUintArray2Slice", scanner := b!"Int4RangeArrayToUintArray2Slice" } },
  { oid := Oid.int4RangeArr, lit := b!"[][2]uint8", entry := { valuer := b!"Int4RangeArrayFromUint8Array2Slice", scanner := b!"Int4RangeArrayToUint8Array2Slice" } },
  { oid := Oid.int4RangeArr, lit := b!"[][2]uint16", entry := { valuer := b!"Int4RangeArrayFromUint16Array2Slice", scanner := b!"Int4RangeArrayToUint16Array2Slice" } },
  { oid := Oid.int4RangeArr, lit := b!"[][2]uint32", entry := { valuer := b!"Int4RangeArrayFromUint32Array2Slice", scanner := b!"Int4RangeArrayToUint32Array2Slice" } },
  { oid := Oid.int4RangeArr, lit := b!"[][2]uint64", entry := { valuer := b!"Int4RangeArrayFromUint64Array2Slice", scanner := b!"Int4RangeArrayToUint64Array2Slice" } },
  { oid := Oid.int4RangeArr, lit := b!"[][2]float32", entry := { valuer := b!"Int4RangeArrayFromFloat32Array2Slice", scanner := b!"Int4RangeArrayToFloat32Array2Slice" } },
  { oid := Oid.int4RangeArr, lit := b!"[][2]float64", entry := { valuer := b!"Int4RangeArrayFromFloat64Array2Slice", scanner := b!"Int4RangeArrayToFloat64Array2Slice" } },
  { oid := Oid.int4RangeArr, lit := b!"string" },
  { oid := Oid.int4RangeArr, lit := b!"[]byte" },
  { oid := Oid.int8, lit := b!"int" },
  { oid := Oid.int8, lit := b!"int8" },
  { oid := Oid.int8, lit := b!"int16" },
  { oid := Oid.int8, lit := b!"int32" },
  { oid := Oid.int8, lit := b!"int64" },
  { oid := Oid.int8, lit := b!"uint" },
  { oid := Oid.int8, lit := b!"uint8" },
  { oid := Oid.int8, lit := b!"uint16" },
  { oid := Oid.int8, lit := b!"uint32" },
  { oid := Oid.int8, lit := b!"uint64" },
  { oid := Oid.int8, lit := b!"float32" },
  { oid := Oid.int8, lit := b!"float64" },
  { oid := Oid.int8, lit := b!"string" },
  { oid := Oid.int8, lit := b!"[]byte" },
  { oid := Oid.int8Arr, lit := b!"[]int", entry := { valuer := b!"Int8ArrayFromIntSlice", scanner := b!"Int8ArrayToIntSlice" } },
  { oid := Oid.int8Arr, lit := b!"[]int8", entry := { valuer := b!"Int8ArrayFromInt8Slice", scanner := b!"Int8ArrayToInt8Slice" } },
  { oid := Oid.int8Arr, lit := b!"[]int16", entry := { valuer := b!"Int8ArrayFromInt16Slice", scanner := b!"Int8ArrayToInt16Slice" } },
  { oid := Oid.int8Arr, lit := b!"[]int32", entry := { valuer := b!"Int8ArrayFromInt32Slice", scanner := b!"Int8ArrayToInt32Slice" } },
  { oid := Oid.int8Arr, lit := b!"[]int64", entry := { valuer := b!"Int8ArrayFromInt64Slice", scanner := b!"Int8ArrayToInt64Slice" } },
  { oid := Oid.int8Arr, lit := b!"[]uint", entry := { valuer := b!"Int8ArrayFromUintSlice", scanner := b!"Int8ArrayToUintSlice" } },
  { oid := Oid.int8Arr, lit := b!"[]uint8", entry := { valuer := b!"Int8ArrayFromUint8Slice", scanner := b!"Int8ArrayToUint8Slice" } },
  { oid := Oid.int8Arr, lit := b!"[]uint16", entry := { valuer := b!"Int8ArrayFromUint16Slice", scanner := b!"Int8ArrayToUint16Slice" } },
  { oid := Oid.int8Arr, lit := b!"[]uint32", entry := { valuer := b!"Int8ArrayFromUint32Slice", scanner := b!"Int8ArrayToUint32Slice" } },
  { oid := Oid.int8Arr, lit := b!"[]uint64", entry := { valuer := b!"Int8ArrayFromUint64Slice", scanner := b!"Int8ArrayToUint64Slice" } },
  { oid := Oid.int8Arr, lit := b!"[]float32", entry := { valuer := b!"Int8ArrayFromFloat32Slice", scanner := b!"Int8ArrayToFloat32Slice" } },
  { oid := Oid.int8Arr, lit := b!"[]float64", entry := { valuer := b!"Int8ArrayFromFloat64Slice", scanner := b!"Int8ArrayToFloat64Slice" } },
  { oid := Oid.int8Arr, lit := b!"string" },
  { oid := Oid.int8Arr, lit := b!"[]byte" },
  { oid := Oid.int8Range, lit := b!"[2]int", entry := { valuer := b!"Int8RangeFromIntArray2", scanner := b!"Int8RangeToIntArray2" } },
  { oid := Oid.int8Range, lit := b!"[2]int8", entry := { valuer := b!"Int8RangeFromInt8Array2", scanner := b!"Int8RangeToInt8Array2" } },
  { oid := Oid.int8Range, lit := b!"[2]int16", entry := { valuer := b!"Int8RangeFromInt16Array2", scanner := b!"Int8RangeToInt16Array2" } },
  { oid := Oid.int8Range, lit := b!"[2]int32", entry := { valuer := b!"Int8RangeFromInt32Array2", scanner := b!"Int8RangeToInt32Array2" } },
  { oid := Oid.int8Range, lit := b!"[2]int64", entry := { valuer := b!"Int8RangeFromInt64Array2", scanner := b!"Int8RangeToInt64Array2" } },
  { oid := Oid.int8Range, lit := b!"[2]uint", entry := { valuer := b!"Int8RangeFromUintArray2", scanner := b!"Int8RangeToUintArray2" } },
  { oid := Oid.int8Range, lit := b!"[2]uint8", entry := { valuer := b!"Int8RangeFromUint8Array2", scanner := b!"Int8RangeToUint8Array2" } },
  { oid := Oid.int8Range, lit := b!"[2]uint16", entry := { valuer := b!"Int8RangeFromUint16Array2", scanner := b!"Int8RangeToUint16Array2" } },
  { oid := Oid.int8Range, lit := b!"[2]uint32", entry := { valuer := b!"Int8RangeFromUint32Array2", scanner := b!"Int8RangeToUint32Array2" } },
  { oid := Oid.int8Range, lit := b!"[2]uint64", entry := { valuer := b!"Int8RangeFromUint64Array2", scanner := b!"Int8RangeToUint64Array2" } }]
def compRows4 : List CompRow := [
  { oid := Oid.int8Range, lit := b!"[2]float32", entry := { valuer := b!"Int8RangeFromFloat32Array2", scanner := b!"Int8RangeToFloat32Array2" } },
  { oid := Oid.int8Range, lit := b!"[2]float64", entry := { valuer := b!"Int8RangeFromFloat64Array2", scanner := b!"Int8RangeToFloat64Array2" } },
  { oid := Oid.int8Range, lit := b!"string" },
  { oid := Oid.int8Range, lit := b!"[]byte" },
  { oid := Oid.int8RangeArr, lit := b!"[][2]int", entry := { valuer := b!"Int8RangeArrayFromIntArray2Slice", scanner := b!"Int8RangeArrayToIntArray2Slice" } },
  { oid := Oid.int8RangeArr, lit := b!"[][2]int8", entry := { valuer := b!"Int8RangeArrayFromInt8Array2Slice", scanner := b!"Int8RangeArrayToInt8Array2Slice" } },
  { oid := Oid.int8RangeArr, lit := b!"[][2]int16", entry := { valuer := b!"Int8RangeArrayFromInt16Array2Slice", scanner := b!"Int8RangeArrayToInt16Array2Slice" } },
  { oid := Oid.int8RangeArr, lit := b!"[][2]int32", entry := { valuer := b!"Int8RangeArrayFromInt32Array2Slice", scanner := b!"Int8RangeArrayToInt32Array2Slice" } },
  { oid := Oid.int8RangeArr, lit := b!"[][2]int64", entry := { valuer := b!"Int8RangeArrayFromInt64Array2Slice", scanner := b!"Int8RangeArrayToInt64Array2Slice" } },
  { oid := Oid.int8RangeArr, lit := b!"[][2]uint", entry := { valuer := b!"Int8RangeArrayFromUintArray2Slice", scanner := b!"Int8RangeArrayToUintArray2Slice" } },
  { oid := Oid.int8RangeArr, lit := b!"[][2]uint8", entry := { valuer := b!"Int8RangeArrayFromUint8Array2Slice", scanner := b!"Int8RangeArrayToUint8Array2Slice" } },
  { oid := Oid.int8RangeArr, lit := b!"[][2]uint16", entry := { valuer := b!"Int8RangeArrayFromUint16Array2Slice", scanner := b!"Int8RangeArrayToUint16Array2Slice" } },
  { oid := Oid.int8RangeArr, lit := b!"[][2]uint32", entry := { valuer := b!"Int8RangeArrayFromUint32Array2Slice", scanner := b!"Int8RangeArrayToUint32Array2Slice" } },
  { oid := Oid.int8RangeArr, lit := b!"[][2]uint64", entry := { valuer := b!"Int8RangeArrayFromUint64Array2Slice", scanner := b!"Int8RangeArrayToUint64Array2Slice" } },
  { oid := Oid.int8RangeArr, lit := b!"[][2]float32", entry := { valuer := b!"Int8RangeArrayFromFloat32Array2Slice", scanner := b!"Int8RangeArrayToFloat32Array2Slice" } },
  { oid := Oid.int8RangeArr, lit := b!"[][2]float64", entry := { valuer := b!"Int8RangeArrayFromFloat64Array2Slice", scanner := b!"Int8RangeArrayToFloat64Array2Slice" } },
  { oid := Oid.int8RangeArr, lit := b!"string" },
  { oid := Oid.int8RangeArr, lit := b!"[]byte" },
  { oid := Oid.interval, lit := b!"string" },
  { oid := Oid.interval, lit := b!"[]byte" },
  { oid := Oid.intervalArr, lit := b!"string" },
  { oid := Oid.intervalArr, lit := b!"[]byte" },
  { oid := Oid.json, lit := b!"interface{}", entry := { valuer := b!"JSON", scanner := b!"JSON" } },
  { oid := Oid.json, lit := b!"string" },
  { oid := Oid.json, lit := b!"[]byte" },
  { oid := Oid.jsonArr, lit := b!"[][]byte", entry := { valuer := b!"JSONArrayFromByteSliceSlice", scanner := b!"JSONArrayToByteSliceSlice" } },
  { oid := Oid.jsonArr, lit := b!"string" },
  { oid := Oid.jsonArr, lit := b!"[]byte" },
  { oid := Oid.jsonb, lit := b!"interface{}", entry := { valuer := b!"JSON", scanner := b!"JSON" } },
  { oid := Oid.jsonb, lit := b!"string" },
  { oid := Oid.jsonb, lit := b!"[]byte" },
  { oid := Oid.jsonbArr, lit := b!"[][]byte", entry := { valuer := b!"JSONArrayFromByteSliceSlice", scanner := b!"JSONArrayToByteSliceSlice" } },
  { oid := Oid.jsonbArr, lit := b!"string" },
  { oid := Oid.jsonbArr, lit := b!"[]byte" },
  { oid := Oid.line, lit := b!"[3]float64", entry := { valuer := b!"LineFromFloat64Array3", scanner := b!"LineToFloat64Array3" } },
  { oid := Oid.line, lit := b!"string" },
  { oid := Oid.line, lit := b!"[]byte" },
  { oid := Oid.lineArr, lit := b!"[][3]float64", entry := { valuer := b!"LineArrayFromFloat64Array3Slice", scanner := b!"LineArrayToFloat64Array3Slice" } },
  { oid := Oid.lineArr, lit := b!"string" },
  { oid := Oid.lineArr, lit := b!"[]byte" },
  { oid := Oid.lseg, lit := b!"[2][2]float64", entry := { valuer := b!"LsegFromFloat64Array2Array2", scanner := b!"LsegToFloat64Array2Array2" } },
  { oid := Oid.lseg, lit := b!"string" },
  { oid := Oid.lseg, lit := b!"[]byte" },
  { oid := Oid.lsegArr, lit := b!"[][2][2]float64", entry := { valuer := b!"LsegArrayFromFloat64Array2Array2Slice", scanner := b!"LsegArrayToFloat64Array2Array2Slice" } },
  { oid := Oid.lsegArr, lit := b!"string" },
  { oid := Oid.lsegArr, lit := b!"[]byte" },
  { oid := Oid.macaddr, lit := b!"net.HardwareAddr", entry := { valuer := b!"MACAddrFromHardwareAddr", scanner := b!"MACAddrToHardwareAddr" } },
  { oid := Oid.macaddr, lit := b!"string" },
  { oid := Oid.macaddr, lit := b!"[]byte" },
  { oid := Oid.macaddrArr, lit := b!"[]net.HardwareAddr", entry := { valuer := b!"MACAddrArrayFromHardwareAddrSlice", scanner := b!"MACAddrArrayToHardwareAddrSlice" } },
  { oid := Oid.macaddrArr, lit := b!"string" },
  { oid := Oid.macaddrArr, lit := b!"[]byte" },
  { oid := Oid.macaddr8, lit := b!"net.HardwareAddr", entry := { valuer := b!"MACAddr8FromHardwareAddr", scanner := b!"MACAddr8ToHardwareAddr" } },
  { oid := Oid.macaddr8, lit := b!"string" },
  { oid := Oid.macaddr8, lit := b!"[]byte" },
  { oid := Oid.macaddr8Arr, lit := b!"[]net.HardwareAddr", entry := { valuer := b!"MACAddr8ArrayFromHardwareAddrSlice", scanner := b!"MACAddr8ArrayToHardwareAddrSlice" } },
  { oid := Oid.macaddr8Arr, lit := b!"string" },
  { oid := Oid.macaddr8Arr, lit := b!"[]byte" },
  { oid := Oid.money, lit := b!"int64", entry := { valuer := b!"MoneyFromInt64", scanner := b!"MoneyToInt64" } },
  { oid := Oid.money, lit := b!"string" }]
def compRows5 : List CompRow := [
  { oid := Oid.money, lit := b!"[]byte" },
  { oid := Oid.moneyArr, lit := b!"[]int64", entry := { valuer := b!"MoneyArrayFromInt64Slice", scanner := b!"MoneyArrayToInt64Slice" } },
  { oid := Oid.moneyArr, lit := b!"string" },
  { oid := Oid.moneyArr, lit := b!"[]byte" },
  { oid := Oid.numeric, lit := b!"int" },
  { oid := Oid.numeric, lit := b!"int8" },
  { oid := Oid.numeric, lit := b!"int16" },
  { oid := Oid.numeric, lit := b!"int32" },
  { oid := Oid.numeric, lit := b!"int64" },
  { oid := Oid.numeric, lit := b!"uint" },
  { oid := Oid.numeric, lit := b!"uint8" },
  { oid := Oid.numeric, lit := b!"uint16" },
  { oid := Oid.numeric, lit := b!"uint32" },
  { oid := Oid.numeric, lit := b!"uint64" },
  { oid := Oid.numeric, lit := b!"float32" },
  { oid := Oid.numeric, lit := b!"float64" },
  { oid := Oid.numeric, lit := b!"string" },
  { oid := Oid.numeric, lit := b!"[]byte" },
  { oid := Oid.numericArr, lit := b!"[]int", entry := { valuer := b!"NumericArrayFromIntSlice", scanner := b!"NumericArrayToIntSlice" } },
  { oid := Oid.numericArr, lit := b!"[]int8", entry := { valuer := b!"NumericArrayFromInt8Slice", scanner := b!"NumericArrayToInt8Slice" } },
  { oid := Oid.numericArr, lit := b!"[]int16", entry := { valuer := b!"NumericArrayFromInt16Slice", scanner := b!"NumericArrayToInt16Slice" } },
  { oid := Oid.numericArr, lit := b!"[]int32", entry := { valuer := b!"NumericArrayFromInt32Slice", scanner := b!"NumericArrayToInt32Slice" } },
  { oid := Oid.numericArr, lit := b!"[]int64", entry := { valuer := b!"NumericArrayFromInt64Slice", scanner := b!"NumericArrayToInt64Slice" } },
  { oid := Oid.numericArr, lit := b!"[]uint", entry := { valuer := b!"NumericArrayFromUintSlice", scanner := b!"NumericArrayToUintSlice" } },
  { oid := Oid.numericArr, lit := b!"[]uint8", entry := { valuer := b!"NumericArrayFromUint8Slice", scanner := b!"NumericArrayToUint8Slice" } },
  { oid := Oid.numericArr, lit := b!"[]uint16", entry := { valuer := b!"NumericArrayFromUint16Slice", scanner := b!"NumericArrayToUint16Slice" } },
  { oid := Oid.numericArr, lit := b!"[]uint32", entry := { valuer := b!"NumericArrayFromUint32Slice", scanner := b!"NumericArrayToUint32Slice" } },
  { oid := Oid.numericArr, lit := b!"[]uint64", entry := { valuer := b!"NumericArrayFromUint64Slice", scanner := b!"NumericArrayToUint64Slice" } },
  { oid := Oid.numericArr, lit := b!"[]float32", entry := { valuer := b!"NumericArrayFromFloat32Slice", scanner := b!"NumericArrayToFloat32Slice" } },
  { oid := Oid.numericArr, lit := b!"[]float64", entry := { valuer := b!"NumericArrayFromFloat64Slice", scanner := b!"NumericArrayToFloat64Slice" } },
  { oid := Oid.numericArr, lit := b!"string" },
  { oid := Oid.numericArr, lit := b!"[]byte" },
  { oid := Oid.numRange, lit := b!"[2]int", entry := { valuer := b!"NumRangeFromIntArray2", scanner := b!"NumRangeToIntArray2" } },
  { oid := Oid.numRange, lit := b!"[2]int8", entry := { valuer := b!"NumRangeFromInt8Array2", scanner := b!"NumRangeToInt8Array2" } },
  { oid := Oid.numRange, lit := b!"[2]int16", entry := { valuer := b!"NumRangeFromInt16Array2", scanner := b!"NumRangeToInt16Array2" } },
  { oid := Oid.numRange, lit := b!"[2]int32", entry := { valuer := b!"NumRangeFromInt32Array2", scanner := b!"NumRangeToInt32Array2" } },
  { oid := Oid.numRange, lit := b!"[2]int64", entry := { valuer := b!"NumRangeFromInt64Array2", scanner := b!"NumRangeToInt64Array2" } },
  { oid := Oid.numRange, lit := b!"[2]uint", entry := { valuer := b!"NumRangeFromUintArray2", scanner := b!"NumRangeToUintArray2" } },
  { oid := Oid.numRange, lit := b!"[2]uint8", entry := { valuer := b!"NumRangeFromUint8Array2", scanner := b!"NumRangeToUint8Array2" } },
  { oid := Oid.numRange, lit := b!"[2]uint16", entry := { valuer := b!"NumRangeFromUint16Array2", scanner := b!"NumRangeToUint16Array2" } },
  { oid := Oid.numRange, lit := b!"[2]uint32", entry := { valuer := b!"NumRangeFromUint32Array2", scanner := b!"NumRangeToUint32Array2" } },
  { oid := Oid.numRange, lit := b!"[2]uint64", entry := { valuer := b!"NumRangeFromUint64Array2", scanner := b!"NumRangeToUint64Array2" } },
  { oid := Oid.numRange, lit := b!"[2]float32", entry := { valuer := b!"NumRangeFromFloat32Array2", scanner := b!"NumRangeToFloat32Array2" } },
  { oid := Oid.numRange, lit := b!"[2]float64", entry := { valuer := b!"NumRangeFromFloat64Array2", scanner := b!"NumRangeToFloat64Array2" } },
  { oid := Oid.numRange, lit := b!"string" },
  { oid := Oid.numRange, lit := b!"[]byte" },
  { oid := Oid.numRangeArr, lit := b!"[][2]int", entry := { valuer := b!"NumRangeArrayFromIntArray2Slice", scanner := b!"NumRangeArrayToIntArray2Slice" } },
  { oid := Oid.numRangeArr, lit := b!"[][2]int8", entry := { valuer := b!"NumRangeArrayFromInt8Array2Slice", scanner := b!"NumRangeArrayToInt8Array2Slice" } },
  { oid := Oid.numRangeArr, lit := b!"[][2]int16", entry := { valuer := b!"NumRangeArrayFromInt16Array2Slice", scanner := b!"NumRangeArrayToInt16Array2Slice" } },
  { oid := Oid.numRangeArr, lit := b!"[][2]int32", entry := { valuer := b!"NumRangeArrayFromInt32Array2Slice", scanner := b!"NumRangeArrayToInt32Array2Slice" } },
  { oid := Oid.numRangeArr, lit := b!"[][2]int64", entry := { valuer := b!"NumRangeArrayFromInt64Array2Slice", scanner := b!"NumRangeArrayToInt64Array2Slice" } },
  { oid := Oid.numRangeArr, lit := b!"[][2]uint", entry := { valuer := b!"NumRangeArrayFromUintArray2Slice", scanner := b!"NumRangeArrayToUintArray2Slice" } },
  { oid := Oid.numRangeArr, lit := b!"[][2]uint8", entry := { valuer := b!"NumRangeArrayFromUint8Array2Slice", scanner := b!"NumRangeArrayToUint8Array2Slice" } },
  { oid := Oid.numRangeArr, lit := b!"[][2]uint16", entry := { valuer := b!"NumRangeArrayFromUint16Array2Slice", scanner := b!"NumRangeArrayToUint16Array2Slice" } },
  { oid := Oid.numRangeArr, lit := b!"[][2]uint32", entry := { valuer := b!"NumRangeArrayFromUint32Array2Slice", scanner := b!"NumRangeArrayToUint32Array2Slice" } },
  { oid := Oid.numRangeArr, lit := b!"[][2]uint64", entry := { valuer := b!"NumRangeArrayFromUint64Array2Slice", scanner := b!"NumRangeArrayToUint64Array2Slice" } },
  { oid := Oid.numRangeArr, lit := b!"[][2]float32", entry := { valuer := b!"NumRangeArrayFromFloat32Array2Slice", scanner := b!"NumRangeArrayToFloat32Array2Slice" } },
  { oid := Oid.numRangeArr, lit := b!"[][2]float64", entry := { valuer := b!"NumRangeArrayFromFloat64Array2Slice", scanner := b!"NumRangeArrayToFloat64Array2Slice" } },
  { oid := Oid.numRangeArr, lit := b!"string" },
  { oid := Oid.numRangeArr, lit := b!"[]byte" }]
def compRows6 : List CompRow := [
  { oid := Oid.path, lit := b!"[][2]float64", entry := { valuer := b!"PathFromFloat64Array2Slice", scanner := b!"PathToFloat64Array2Slice" } },
  { oid := Oid.path, lit := b!"string" },
  { oid := Oid.path, lit := b!"[]byte" },
  { oid := Oid.pathArr, lit := b!"[][][2]float64", entry := { valuer := b!"PathArrayFromFloat64Array2SliceSlice", scanner := b!"PathArrayToFloat64Array2SliceSlice" } },
  { oid := Oid.pathArr, lit := b!"string" },
  { oid := Oid.pathArr, lit := b!"[]byte" },
  { oid := Oid.point, lit := b!"[2]float64", entry := { valuer := b!"PointFromFloat64Array2", scanner := b!"PointToFloat64Array2" } },
  { oid := Oid.point, lit := b!"string" },
  { oid := Oid.point, lit := b!"[]byte" },
  { oid := Oid.pointArr, lit := b!"[][2]float64", entry := { valuer := b!"PointArrayFromFloat64Array2Slice", scanner := b!"PointArrayToFloat64Array2Slice" } },
  { oid := Oid.pointArr, lit := b!"string" },
  { oid := Oid.pointArr, lit := b!"[]byte" },
  { oid := Oid.polygon, lit := b!"[][2]float64", entry := { valuer := b!"PolygonFromFloat64Array2Slice", scanner := b!"PolygonToFloat64Array2Slice" } },
  { oid := Oid.polygon, lit := b!"string" },
  { oid := Oid.polygon, lit := b!"[]byte" },
  { oid := Oid.polygonArr, lit := b!"[][][2]float64", entry := { valuer := b!"PolygonArrayFromFloat64Array2SliceSlice", scanner := b!"PolygonArrayToFloat64Array2SliceSlice" } },
  { oid := Oid.polygonArr, lit := b!"string" },
  { oid := Oid.polygonArr, lit := b!"[]byte" },
  { oid := Oid.text, lit := b!"string" },
  { oid := Oid.text, lit := b!"[]byte" },
  { oid := Oid.textArr, lit := b!"[]string", entry := { valuer := b!"TextArrayFromStringSlice", scanner := b!"TextArrayToStringSlice" } },
  { oid := Oid.textArr, lit := b!"[][]byte", entry := { valuer := b!"TextArrayFromByteSliceSlice", scanner := b!"TextArrayToByteSliceSlice" } },
  { oid := Oid.textArr, lit := b!"string" },
  { oid := Oid.textArr, lit := b!"[]byte" },
  { oid := Oid.time, lit := b!"time.Time" },
  { oid := Oid.time, lit := b!"string", entry := { scanner := b!"TimeToString" } },
  { oid := Oid.time, lit := b!"[]byte", entry := { scanner := b!"TimeToByteSlice" } },
  { oid := Oid.timeArr, lit := b!"[]time.Time", entry := { valuer := b!"TimeArrayFromTimeSlice", scanner := b!"TimeArrayToTimeSlice" } },
  { oid := Oid.timeArr, lit := b!"string" },
  { oid := Oid.timeArr, lit := b!"[]byte" },
  { oid := Oid.timestamp, lit := b!"time.Time" },
  { oid := Oid.timestamp, lit := b!"string" },
  { oid := Oid.timestamp, lit := b!"[]byte" },
  { oid := Oid.timestampArr, lit := b!"[]time.Time", entry := { valuer := b!"TimestampArrayFromTimeSlice", scanner := b!"TimestampArrayToTimeSlice" } },
  { oid := Oid.timestampArr, lit := b!"string" },
  { oid := Oid.timestampArr, lit := b!"[]byte" },
  { oid := Oid.timestamptz, lit := b!"time.Time" },
  { oid := Oid.timestamptz, lit := b!"string" },
  { oid := Oid.timestamptz, lit := b!"[]byte" },
  { oid := Oid.timestamptzArr, lit := b!"[]time.Time", entry := { valuer := b!"TimestamptzArrayFromTimeSlice", scanner := b!"TimestamptzArrayToTimeSlice" } },
  { oid := Oid.timestamptzArr, lit := b!"string" },
  { oid := Oid.timestamptzArr, lit := b!"[]byte" },
  { oid := Oid.timetz, lit := b!"time.Time" },
  { oid := Oid.timetz, lit := b!"string", entry := { scanner := b!"TimetzToString" } },
  { oid := Oid.timetz, lit := b!"[]byte", entry := { scanner := b!"TimetzToByteSlice" } },
  { oid := Oid.timetzArr, lit := b!"[]time.Time", entry := { valuer := b!"TimetzArrayFromTimeSlice", scanner := b!"TimetzArrayToTimeSlice" } },
  { oid := Oid.timetzArr, lit := b!"string" },
  { oid := Oid.timetzArr, lit := b!"[]byte" },
  { oid := Oid.tsquery, lit := b!"string" },
  { oid := Oid.tsquery, lit := b!"[]byte" },
  { oid := Oid.tsqueryArr, lit := b!"[]string", entry := { valuer := b!"TSQueryArrayFromStringSlice", scanner := b!"TSQueryArrayToStringSlice" } },
  { oid := Oid.tsqueryArr, lit := b!"[][]byte", entry := { valuer := b!"TSQueryArrayFromByteSliceSlice", scanner := b!"TSQueryArrayToByteSliceSlice" } },
  { oid := Oid.tsqueryArr, lit := b!"string" },
  { oid := Oid.tsqueryArr, lit := b!"[]byte" },
  { oid := Oid.tsrange, lit := b!"[2]time.Time", entry := { valuer := b!"TsRangeFromTimeArray2", scanner := b!"TsRangeToTimeArray2" } },
  { oid := Oid.tsrange, lit := b!"string" },
  { oid := Oid.tsrange, lit := b!"[]byte" },
  { oid := Oid.tsrangeArr, lit := b!"[][2]time.Time", entry := { valuer := b!"TsRangeArrayFromTimeArray2Slice", scanner := b!"TsRangeArrayToTimeArray2Slice" } },
  { oid := Oid.tsrangeArr, lit := b!"string" },
  { oid := Oid.tsrangeArr, lit := b!"[]byte" }]
def compRows7 : List CompRow := [
  { oid := Oid.tstzrange, lit := b!"[2]time.Time", entry := { valuer := b!"TstzRangeFromTimeArray2", scanner := b!"TstzRangeToTimeArray2" } },
  { oid := Oid.tstzrange, lit := b!"string" },
  { oid := Oid.tstzrange, lit := b!"[]byte" },
  { oid := Oid.tstzrangeArr, lit := b!"[][2]time.Time", entry := { valuer := b!"TstzRangeArrayFromTimeArray2Slice", scanner := b!"TstzRangeArrayToTimeArray2Slice" } },
  { oid := Oid.tstzrangeArr, lit := b!"string" },
  { oid := Oid.tstzrangeArr, lit := b!"[]byte" },
  { oid := Oid.tsvector, lit := b!"[]string", entry := { valuer := b!"TSVectorFromStringSlice", scanner := b!"TSVectorToStringSlice" } },
  { oid := Oid.tsvector, lit := b!"[][]byte", entry := { valuer := b!"TSVectorFromByteSliceSlice", scanner := b!"TSVectorToByteSliceSlice" } },
  { oid := Oid.tsvector, lit := b!"string" },
  { oid := Oid.tsvector, lit := b!"[]byte" },
  { oid := Oid.tsvectorArr, lit := b!"[][]string", entry := { valuer := b!"TSVectorArrayFromStringSliceSlice", scanner := b!"TSVectorArrayToStringSliceSlice" } },
  { oid := Oid.tsvectorArr, lit := b!"[][][]byte", entry := { valuer := b!"TSVectorArrayFromByteSliceSliceSlice", scanner := b!"TSVectorArrayToByteSliceSliceSlice" } },
  { oid := Oid.tsvectorArr, lit := b!"string" },
  { oid := Oid.tsvectorArr, lit := b!"[]byte" },
  { oid := Oid.uuid, lit := b!"[16]byte", entry := { valuer := b!"UUIDFromByteArray16", scanner := b!"UUIDToByteArray16" } },
  { oid := Oid.uuid, lit := b!"string" },
  { oid := Oid.uuid, lit := b!"[]byte" },
  { oid := Oid.uuidArr, lit := b!"[][16]byte", entry := { valuer := b!"UUIDArrayFromByteArray16Slice", scanner := b!"UUIDArrayToByteArray16Slice" } },
  { oid := Oid.uuidArr, lit := b!"[]string", entry := { valuer := b!"UUIDArrayFromStringSlice", scanner := b!"UUIDArrayToStringSlice" } },
  { oid := Oid.uuidArr, lit := b!"[][]byte", entry := { valuer := b!"UUIDArrayFromByteSliceSlice", scanner := b!"UUIDArrayToByteSliceSlice" } },
  { oid := Oid.uuidArr, lit := b!"string" },
  { oid := Oid.uuidArr, lit := b!"[]byte" },
  { oid := Oid.varbit, lit := b!"int64", entry := { valuer := b!"VarBitFromInt64", scanner := b!"VarBitToInt64" } },
  { oid := Oid.varbit, lit := b!"[]bool", entry := { valuer := b!"VarBitFromBoolSlice", scanner := b!"VarBitToBoolSlice" } },
  { oid := Oid.varbit, lit := b!"[]uint8", entry := { valuer := b!"VarBitFromUint8Slice", scanner := b!"VarBitToUint8Slice" } },
  { oid := Oid.varbit, lit := b!"string" },
  { oid := Oid.varbit, lit := b!"[]byte" },
  { oid := Oid.varbitArr, lit := b!"[]int64", entry := { valuer := b!"VarBitArrayFromInt64Slice", scanner := b!"VarBitArrayToInt64Slice" } },
  { oid := Oid.varbitArr, lit := b!"[][]bool", entry := { valuer := b!"VarBitArrayFromBoolSliceSlice", scanner := b!"VarBitArrayToBoolSliceSlice" } },
  { oid := Oid.varbitArr, lit := b!"[][]uint8", entry := { valuer := b!"VarBitArrayFromUint8SliceSlice", scanner := b!"VarBitArrayToUint8SliceSlice" } },
  { oid := Oid.varbitArr, lit := b!"[]string", entry := { valuer := b!"VarBitArrayFromStringSlice", scanner := b!"VarBitArrayToStringSlice" } },
  { oid := Oid.varbitArr, lit := b!"string" },
  { oid := Oid.varbitArr, lit := b!"[]byte" },
  { oid := Oid.varchar, lit := b!"string" },
  { oid := Oid.varchar, lit := b!"[]byte" },
  { oid := Oid.varcharArr, lit := b!"[]string", entry := { valuer := b!"VarCharArrayFromStringSlice", scanner := b!"VarCharArrayToStringSlice" } },
  { oid := Oid.varcharArr, lit := b!"[][]byte", entry := { valuer := b!"VarCharArrayFromByteSliceSlice", scanner := b!"VarCharArrayToByteSliceSlice" } },
  { oid := Oid.varcharArr, lit := b!"string" },
  { oid := Oid.varcharArr, lit := b!"[]byte" },
  { oid := Oid.xml, lit := b!"interface{}", entry := { valuer := b!"XML", scanner := b!"XML" } },
  { oid := Oid.xml, lit := b!"string" },
  { oid := Oid.xml, lit := b!"[]byte" },
  { oid := Oid.xmlArr, lit := b!"[][]byte", entry := { valuer := b!"XMLArrayFromByteSliceSlice", scanner := b!"XMLArrayToByteSliceSlice" } },
  { oid := Oid.xmlArr, lit := b!"string" },
  { oid := Oid.xmlArr, lit := b!"[]byte" }]

/-- compatibility.go:57-727 init_oid2literal. -/
def compTable : List CompRow :=
  compRows0 ++ compRows1 ++ compRows2 ++ compRows3 ++ compRows4 ++ compRows5 ++ compRows6 ++ compRows7

/-- What a function of package pgsql gives back. -/
inductive ConvKind where
  | valuer | scanner | both
deriving Repr, DecidableEq

/-- An exported one-argument function of /repo/pgsql: its name, parameter type and result. -/
structure ConvFunc where
  name : Bytes
  param : Bytes
  kind : ConvKind
deriving Repr, DecidableEq

def convFuncs0 : List ConvFunc := [
  ⟨b!"AnyToEmptyInterface", b!"*interface{}", .scanner⟩,
  ⟨b!"BPCharArrayFromByteSlice", b!"[]byte", .valuer⟩,
  ⟨b!"BPCharArrayFromRuneSlice", b!"[]rune", .valuer⟩,
  ⟨b!"BPCharArrayFromString", b!"string", .valuer⟩,
  ⟨b!"BPCharArrayFromStringSlice", b!"[]string", .valuer⟩,
  ⟨b!"BPCharArrayToByteSlice", b!"*[]byte", .scanner⟩,
  ⟨b!"BPCharArrayToRuneSlice", b!"*[]rune", .scanner⟩,
  ⟨b!"BPCharArrayToString", b!"*string", .scanner⟩,
  ⟨b!"BPCharArrayToStringSlice", b!"*[]string", .scanner⟩,
  ⟨b!"BPCharFromByte", b!"byte", .valuer⟩,
  ⟨b!"BPCharFromRune", b!"rune", .valuer⟩,
  ⟨b!"BPCharToByte", b!"*byte", .scanner⟩,
  ⟨b!"BPCharToRune", b!"*rune", .scanner⟩,
  ⟨b!"BitArrayFromBoolSlice", b!"[]bool", .valuer⟩,
  ⟨b!"BitArrayFromUint8Slice", b!"[]uint8", .valuer⟩,
  ⟨b!"BitArrayFromUintSlice", b!"[]uint", .valuer⟩,
  ⟨b!"BitArrayToBoolSlice", b!"*[]bool", .scanner⟩,
  ⟨b!"BitArrayToUint8Slice", b!"*[]uint8", .scanner⟩,
  ⟨b!"BitArrayToUintSlice", b!"*[]uint", .scanner⟩,
  ⟨b!"BitFromBool", b!"bool", .valuer⟩,
  ⟨b!"BoolArrayFromBoolSlice", b!"[]bool", .valuer⟩,
  ⟨b!"BoolArrayToBoolSlice", b!"*[]bool", .scanner⟩,
  ⟨b!"BoxArrayFromFloat64Array2Array2Slice", b!"[][2][2]float64", .valuer⟩,
  ⟨b!"BoxArrayToFloat64Array2Array2Slice", b!"*[][2][2]float64", .scanner⟩,
  ⟨b!"BoxFromFloat64Array2Array2", b!"[2][2]float64", .valuer⟩,
  ⟨b!"BoxToFloat64Array2Array2", b!"*[2][2]float64", .scanner⟩,
  ⟨b!"ByteaArrayFromByteSliceSlice", b!"[][]byte", .valuer⟩,
  ⟨b!"ByteaArrayFromStringSlice", b!"[]string", .valuer⟩,
  ⟨b!"ByteaArrayToByteSliceSlice", b!"*[][]byte", .scanner⟩,
  ⟨b!"ByteaArrayToStringSlice", b!"*[]string", .scanner⟩,
  ⟨b!"CIDRArrayFromIPNetSlice", b!"[]net.IPNet", .valuer⟩,
  ⟨b!"CIDRArrayToIPNetSlice", b!"*[]net.IPNet", .scanner⟩,
  ⟨b!"CIDRFromIPNet", b!"net.IPNet", .valuer⟩,
  ⟨b!"CIDRToIPNet", b!"*net.IPNet", .scanner⟩,
  ⟨b!"CharArrayFromByteSlice", b!"[]byte", .valuer⟩,
  ⟨b!"CharArrayFromRuneSlice", b!"[]rune", .valuer⟩,
  ⟨b!"CharArrayFromString", b!"string", .valuer⟩,
  ⟨b!"CharArrayFromStringSlice", b!"[]string", .valuer⟩,
  ⟨b!"CharArrayToByteSlice", b!"*[]byte", .scanner⟩,
  ⟨b!"CharArrayToRuneSlice", b!"*[]rune", .scanner⟩,
  ⟨b!"CharArrayToString", b!"*string", .scanner⟩,
  ⟨b!"CharArrayToStringSlice", b!"*[]string", .scanner⟩,
  ⟨b!"CharFromByte", b!"byte", .valuer⟩,
  ⟨b!"CharFromRune", b!"rune", .valuer⟩,
  ⟨b!"CharToByte", b!"*byte", .scanner⟩,
  ⟨b!"CharToRune", b!"*rune", .scanner⟩,
  ⟨b!"DateArrayFromTimeSlice", b!"[]time.Time", .valuer⟩,
  ⟨b!"DateArrayToTimeSlice", b!"*[]time.Time", .scanner⟩,
  ⟨b!"DateRangeArrayFromTimeArray2Slice", b!"[][2]time.Time", .valuer⟩,
  ⟨b!"DateRangeArrayToTimeArray2Slice", b!"*[][2]time.Time", .scanner⟩,
  ⟨b!"DateRangeFromTimeArray2", b!"[2]time.Time", .valuer⟩,
  ⟨b!"DateRangeToTimeArray2", b!"*[2]time.Time", .scanner⟩,
  ⟨b!"DateToByteSlice", b!"*[]byte", .scanner⟩,
  ⟨b!"DateToString", b!"*string", .scanner⟩,
  ⟨b!"DateToTime", b!"*time.Time", .scanner⟩,
  ⟨b!"Float4ArrayFromFloat32Slice", b!"[]float32", .valuer⟩,
  ⟨b!"Float4ArrayFromFloat64Slice", b!"[]float64", .valuer⟩,
  ⟨b!"Float4ArrayToFloat32Slice", b!"*[]float32", .scanner⟩,
  ⟨b!"Float4ArrayToFloat64Slice", b!"*[]float64", .scanner⟩,
  ⟨b!"Float8ArrayFromFloat32Slice", b!"[]float32", .valuer⟩]
def convFuncs1 : List ConvFunc := [
  ⟨b!"Float8ArrayFromFloat64Slice", b!"[]float64", .valuer⟩,
  ⟨b!"Float8ArrayToFloat32Slice", b!"*[]float32", .scanner⟩,
  ⟨b!"Float8ArrayToFloat64Slice", b!"*[]float64", .scanner⟩,
  ⟨b!"HStoreArrayFromNullStringMapSlice", b!"[]map[string]sql.NullString", .valuer⟩,
  ⟨b!"HStoreArrayFromStringMapSlice", b!"[]map[string]string", .valuer⟩,
  ⟨b!"HStoreArrayFromStringPtrMapSlice", b!"[]map[string]*string", .valuer⟩,
  ⟨b!"HStoreArrayToNullStringMapSlice", b!"*[]map[string]sql.NullString", .scanner⟩,
  ⟨b!"HStoreArrayToStringMapSlice", b!"*[]map[string]string", .scanner⟩,
  ⟨b!"HStoreArrayToStringPtrMapSlice", b!"*[]map[string]*string", .scanner⟩,
  ⟨b!"HStoreFromNullStringMap", b!"map[string]sql.NullString", .valuer⟩,
  ⟨b!"HStoreFromStringMap", b!"map[string]string", .valuer⟩,
  ⟨b!"HStoreFromStringPtrMap", b!"map[string]*string", .valuer⟩,
  ⟨b!"HStoreToNullStringMap", b!"*map[string]sql.NullString", .scanner⟩,
  ⟨b!"HStoreToStringMap", b!"*map[string]string", .scanner⟩,
  ⟨b!"HStoreToStringPtrMap", b!"*map[string]*string", .scanner⟩,
  ⟨b!"InetArrayFromIPNetSlice", b!"[]net.IPNet", .valuer⟩,
  ⟨b!"InetArrayFromIPSlice", b!"[]net.IP", .valuer⟩,
  ⟨b!"InetArrayToIPNetSlice", b!"*[]net.IPNet", .scanner⟩,
  ⟨b!"InetArrayToIPSlice", b!"*[]net.IP", .scanner⟩,
  ⟨b!"InetFromIP", b!"net.IP", .valuer⟩,
  ⟨b!"InetFromIPNet", b!"net.IPNet", .valuer⟩,
  ⟨b!"InetToIP", b!"*net.IP", .scanner⟩,
  ⟨b!"InetToIPNet", b!"*net.IPNet", .scanner⟩,
  ⟨b!"Int2ArrayFromFloat32Slice", b!"[]float32", .valuer⟩,
  ⟨b!"Int2ArrayFromFloat64Slice", b!"[]float64", .valuer⟩,
  ⟨b!"Int2ArrayFromInt16Slice", b!"[]int16", .valuer⟩,
  ⟨b!"Int2ArrayFromInt32Slice", b!"[]int32", .valuer⟩,
  ⟨b!"Int2ArrayFromInt64Slice", b!"[]int64", .valuer⟩,
  ⟨b!"Int2ArrayFromInt8Slice", b!"[]int8", .valuer⟩,
  ⟨b!"Int2ArrayFromIntSlice", b!"[]int", .valuer⟩,
  ⟨b!"Int2ArrayFromUint16Slice", b!"[]uint16", .valuer⟩,
  ⟨b!"Int2ArrayFromUint32Slice", b!"[]uint32", .valuer⟩,
  ⟨b!"Int2ArrayFromUint64Slice", b!"[]uint64", .valuer⟩,
  ⟨b!"Int2ArrayFromUint8Slice", b!"[]uint8", .valuer⟩,
  ⟨b!"Int2ArrayFromUintSlice", b!"[]uint", .valuer⟩,
  ⟨b!"Int2ArrayToFloat32Slice", b!"*[]float32", .scanner⟩,
  ⟨b!"Int2ArrayToFloat64Slice", b!"*[]float64", .scanner⟩,
  ⟨b!"Int2ArrayToInt16Slice", b!"*[]int16", .scanner⟩,
  ⟨b!"Int2ArrayToInt32Slice", b!"*[]int32", .scanner⟩,
  ⟨b!"Int2ArrayToInt64Slice", b!"*[]int64", .scanner⟩,
  ⟨b!"Int2ArrayToInt8Slice", b!"*[]int8", .scanner⟩,
  ⟨b!"Int2ArrayToIntSlice", b!"*[]int", .scanner⟩,
  ⟨b!"Int2ArrayToUint16Slice", b!"*[]uint16", .scanner⟩,
  ⟨b!"Int2ArrayToUint32Slice", b!"*[]uint32", .scanner⟩,
  ⟨b!"Int2ArrayToUint64Slice", b!"*[]uint64", .scanner⟩,
  ⟨b!"Int2ArrayToUint8Slice", b!"*[]uint8", .scanner⟩,
  ⟨b!"Int2ArrayToUintSlice", b!"*[]uint", .scanner⟩,
  ⟨b!"Int2VectorArrayFromFloat32SliceSlice", b!"[][]float32", .valuer⟩,
  ⟨b!"Int2VectorArrayFromFloat64SliceSlice", b!"[][]float64", .valuer⟩,
  ⟨b!"Int2VectorArrayFromInt16SliceSlice", b!"[][]int16", .valuer⟩,
  ⟨b!"Int2VectorArrayFromInt32SliceSlice", b!"[][]int32", .valuer⟩,
  ⟨b!"Int2VectorArrayFromInt64SliceSlice", b!"[][]int64", .valuer⟩,
  ⟨b!"Int2VectorArrayFromInt8SliceSlice", b!"[][]int8", .valuer⟩,
  ⟨b!"Int2VectorArrayFromIntSliceSlice", b!"[][]int", .valuer⟩,
  ⟨b!"Int2VectorArrayFromUint16SliceSlice", b!"[][]uint16", .valuer⟩,
  ⟨b!"Int2VectorArrayFromUint32SliceSlice", b!"[][]uint32", .valuer⟩,
  ⟨b!"Int2VectorArrayFromUint64SliceSlice", b!"[][]uint64", .valuer⟩,
  ⟨b!"Int2VectorArrayFromUint8SliceSlice", b!"[][]uint8", .valuer⟩,
  ⟨b!"Int2VectorArrayFromUintSliceSlice", b!"[][]uint", .valuer⟩,
  ⟨b!"Int2VectorArrayToFloat32SliceSlice", b!"*[][]float32", .scanner⟩]
def convFuncs2 : List ConvFunc := [
  ⟨b!"Int2VectorArrayToFloat64SliceSlice", b!"*[][]float64", .scanner⟩,
  ⟨b!"Int2VectorArrayToInt16SliceSlice", b!"*[][]int16", .scanner⟩,
  ⟨b!"Int2VectorArrayToInt32SliceSlice", b!"*[][]int32", .scanner⟩,
  ⟨b!"Int2VectorArrayToInt64SliceSlice", b!"*[][]int64", .scanner⟩,
  ⟨b!"Int2VectorArrayToInt8SliceSlice", b!"*[][]int8", .scanner⟩,
  ⟨b!"Int2VectorArrayToIntSliceSlice", b!"*[][]int", .scanner⟩,
  ⟨b!"Int2VectorArrayToUint16SliceSlice", b!"*[][]uint16", .scanner⟩,
  ⟨b!"Int2VectorArrayToUint32SliceSlice", b!"*[][]uint32", .scanner⟩,
  ⟨b!"Int2VectorArrayToUint64SliceSlice", b!"*[][]uint64", .scanner⟩,
  ⟨b!"Int2VectorArrayToUint8SliceSlice", b!"*[][]uint8", .scanner⟩,
  ⟨b!"Int2VectorArrayToUintSliceSlice", b!"*[][]uint", .scanner⟩,
  ⟨b!"Int2VectorFromFloat32Slice", b!"[]float32", .valuer⟩,
  ⟨b!"Int2VectorFromFloat64Slice", b!"[]float64", .valuer⟩,
  ⟨b!"Int2VectorFromInt16Slice", b!"[]int16", .valuer⟩,
  ⟨b!"Int2VectorFromInt32Slice", b!"[]int32", .valuer⟩,
  ⟨b!"Int2VectorFromInt64Slice", b!"[]int64", .valuer⟩,
  ⟨b!"Int2VectorFromInt8Slice", b!"[]int8", .valuer⟩,
  ⟨b!"Int2VectorFromIntSlice", b!"[]int", .valuer⟩,
  ⟨b!"Int2VectorFromUint16Slice", b!"[]uint16", .valuer⟩,
  ⟨b!"Int2VectorFromUint32Slice", b!"[]uint32", .valuer⟩,
  ⟨b!"Int2VectorFromUint64Slice", b!"[]uint64", .valuer⟩,
  ⟨b!"Int2VectorFromUint8Slice", b!"[]uint8", .valuer⟩,
  ⟨b!"Int2VectorFromUintSlice", b!"[]uint", .valuer⟩,
  ⟨b!"Int2VectorToFloat32Slice", b!"*[]float32", .scanner⟩,
  ⟨b!"Int2VectorToFloat64Slice", b!"*[]float64", .scanner⟩,
  ⟨b!"Int2VectorToInt16Slice", b!"*[]int16", .scanner⟩,
  ⟨b!"Int2VectorToInt32Slice", b!"*[]int32", .scanner⟩,
  ⟨b!"Int2VectorToInt64Slice", b!"*[]int64", .scanner⟩,
  ⟨b!"Int2VectorToInt8Slice", b!"*[]int8", .scanner⟩,
  ⟨b!"Int2VectorToIntSlice", b!"*[]int", .scanner⟩,
  ⟨b!"Int2VectorToUint16Slice", b!"*[]uint16", .scanner⟩,
  ⟨b!"Int2VectorToUint32Slice", b!"*[]uint32", .scanner⟩,
  ⟨b!"Int2VectorToUint64Slice", b!"*[]uint64", .scanner⟩,
  ⟨b!"Int2VectorToUint8Slice", b!"*[]uint8", .scanner⟩,
  ⟨b!"Int2VectorToUintSlice", b!"*[]uint", .scanner⟩,
  ⟨b!"Int4ArrayFromFloat32Slice", b!"[]float32", .valuer⟩,
  ⟨b!"Int4ArrayFromFloat64Slice", b!"[]float64", .valuer⟩,
  ⟨b!"Int4ArrayFromInt16Slice", b!"[]int16", .valuer⟩,
  ⟨b!"Int4ArrayFromInt32Slice", b!"[]int32", .valuer⟩,
  ⟨b!"Int4ArrayFromInt64Slice", b!"[]int64", .valuer⟩,
  ⟨b!"Int4ArrayFromInt8Slice", b!"[]int8", .valuer⟩,
  ⟨b!"Int4ArrayFromIntSlice", b!"[]int", .valuer⟩,
  ⟨b!"Int4ArrayFromUint16Slice", b!"[]uint16", .valuer⟩,
  ⟨b!"Int4ArrayFromUint32Slice", b!"[]uint32", .valuer⟩,
  ⟨b!"Int4ArrayFromUint64Slice", b!"[]uint64", .valuer⟩,
  ⟨b!"Int4ArrayFromUint8Slice", b!"[]uint8", .valuer⟩,
  ⟨b!"Int4ArrayFromUintSlice", b!"[]uint", .valuer⟩,
  ⟨b!"Int4ArrayToFloat32Slice", b!"*[]float32", .scanner⟩,
  ⟨b!"Int4ArrayToFloat64Slice", b!"*[]float64", .scanner⟩,
  ⟨b!"Int4ArrayToInt16Slice", b!"*[]int16", .scanner⟩,
  ⟨b!"Int4ArrayToInt32Slice", b!"*[]int32", .scanner⟩,
  ⟨b!"Int4ArrayToInt64Slice", b!"*[]int64", .scanner⟩,
  ⟨b!"Int4ArrayToInt8Slice", b!"*[]int8", .scanner⟩,
  ⟨b!"Int4ArrayToIntSlice", b!"*[]int", .scanner⟩,
  ⟨b!"Int4ArrayToUint16Slice", b!"*[]uint16", .scanner⟩,
  ⟨b!"Int4ArrayToUint32Slice", b!"*[]uint32", .scanner⟩,
  ⟨b!"Int4ArrayToUint64Slice", b!"*[]uint64", .scanner⟩,
  ⟨b!"Int4ArrayToUint8Slice", b!"*[]uint8", .scanner⟩,
  ⟨b!"Int4ArrayToUintSlice", b!"*[]uint", .scanner⟩,
  ⟨b!"Int4RangeArrayFromFloat32Array2Slice", b!"[][2]float32", .valuer⟩]
def convFuncs3 : List ConvFunc := [
  ⟨b!"Int4RangeArrayFromFloat64Array2Slice", b!"[][2]float64", .valuer⟩,
  ⟨b!"Int4RangeArrayFromInt16Array2Slice", b!"[][2]int16", .valuer⟩,
  ⟨b!"Int4RangeArrayFromInt32Array2Slice", b!"[][2]int32", .valuer⟩,
  ⟨b!"Int4RangeArrayFromInt64Array2Slice", b!"[][2]int64", .valuer⟩,
  ⟨b!"Int4RangeArrayFromInt8Array2Slice", b!"[][2]int8", .valuer⟩,
  ⟨b!"Int4RangeArrayFromIntArray2Slice", b!"[][2]int", .valuer⟩,
  ⟨b!"Int4RangeArrayFromUint16Array2Slice", b!"[][2]uint16", .valuer⟩,
  ⟨b!"Int4RangeArrayFromUint32Array2Slice", b!"[][2]uint32", .valuer⟩,
  ⟨b!"Int4RangeArrayFromUint64Array2Slice", b!"[][2]uint64", .valuer⟩,
  ⟨b!"Int4RangeArrayFromUint8Array2Slice", b!"[][2]uint8", .valuer⟩,
  ⟨b!"Int4RangeArrayFromUintArray2Slice", b!"[][2]uint", .valuer⟩,
  ⟨b!"Int4RangeArrayToFloat32Array2Slice", b!"*[][2]float32", .scanner⟩,
  ⟨b!"Int4RangeArrayToFloat64Array2Slice", b!"*[][2]float64", .scanner⟩,
  ⟨b!"Int4RangeArrayToInt16Array2Slice", b!"*[][2]int16", .scanner⟩,
  ⟨b!"Int4RangeArrayToInt32Array2Slice", b!"*[][2]int32", .scanner⟩,
  ⟨b!"Int4RangeArrayToInt64Array2Slice", b!"*[][2]int64", .scanner⟩,
  ⟨b!"Int4RangeArrayToInt8Array2Slice", b!"*[][2]int8", .scanner⟩,
  ⟨b!"Int4RangeArrayToIntArray2Slice", b!"*[][2]int", .scanner⟩,
  ⟨b!"Int4RangeArrayToUint16Array2Slice", b!"*[][2]uint16", .scanner⟩,
  ⟨b!"Int4RangeArrayToUint32Array2Slice", b!"*[][2]uint32", .scanner⟩,
  ⟨b!"Int4RangeArrayToUint64Array2Slice", b!"*[][2]uint64", .scanner⟩,
  ⟨b!"Int4RangeArrayToUint8Array2Slice", b!"*[][2]uint8", .scanner⟩,
  ⟨b!"Int4RangeArrayToUintArray2Slice", b!"*[][2]uint", .scanner⟩,
  ⟨b!"Int4RangeFromFloat32Array2", b!"[2]float32", .valuer⟩,
  ⟨b!"Int4RangeFromFloat64Array2", b!"[2]float64", .valuer⟩,
  ⟨b!"Int4RangeFromInt16Array2", b!"[2]int16", .valuer⟩,
  ⟨b!"Int4RangeFromInt32Array2", b!"[2]int32", .valuer⟩,
  ⟨b!"Int4RangeFromInt64Array2", b!"[2]int64", .valuer⟩,
  ⟨b!"Int4RangeFromInt8Array2", b!"[2]int8", .valuer⟩,
  ⟨b!"Int4RangeFromIntArray2", b!"[2]int", .valuer⟩,
  ⟨b!"Int4RangeFromUint16Array2", b!"[2]uint16", .valuer⟩,
  ⟨b!"Int4RangeFromUint32Array2", b!"[2]uint32", .valuer⟩,
  ⟨b!"Int4RangeFromUint64Array2", b!"[2]uint64", .valuer⟩,
  ⟨b!"Int4RangeFromUint8Array2", b!"[2]uint8", .valuer⟩,
  ⟨b!"Int4RangeFromUintArray2", b!"[2]uint", .valuer⟩,
  ⟨b!"Int4RangeToFloat32Array2", b!"*[2]float32", .scanner⟩,
  ⟨b!"Int4RangeToFloat64Array2", b!"*[2]float64", .scanner⟩,
  ⟨b!"Int4RangeToInt16Array2", b!"*[2]int16", .scanner⟩,
  ⟨b!"Int4RangeToInt32Array2", b!"*[2]int32", .scanner⟩,
  ⟨b!"Int4RangeToInt64Array2", b!"*[2]int64", .scanner⟩,
  ⟨b!"Int4RangeToInt8Array2", b!"*[2]int8", .scanner⟩,
  ⟨b!"Int4RangeToIntArray2", b!"*[2]int", .scanner⟩,
  ⟨b!"Int4RangeToUint16Array2", b!"*[2]uint16", .scanner⟩,
  ⟨b!"Int4RangeToUint32Array2", b!"*[2]uint32", .scanner⟩,
  ⟨b!"Int4RangeToUint64Array2", b!"*[2]uint64", .scanner⟩,
  ⟨b!"Int4RangeToUint8Array2", b!"*[2]uint8", .scanner⟩,
  ⟨b!"Int4RangeToUintArray2", b!"*[2]uint", .scanner⟩,
  ⟨b!"Int8ArrayFromFloat32Slice", b!"[]float32", .valuer⟩,
  ⟨b!"Int8ArrayFromFloat64Slice", b!"[]float64", .valuer⟩,
  ⟨b!"Int8ArrayFromInt16Slice", b!"[]int16", .valuer⟩,
  ⟨b!"Int8ArrayFromInt32Slice", b!"[]int32", .valuer⟩,
  ⟨b!"Int8ArrayFromInt64Slice", b!"[]int64", .valuer⟩,
  ⟨b!"Int8ArrayFromInt8Slice", b!"[]int8", .valuer⟩,
  ⟨b!"Int8ArrayFromIntSlice", b!"[]int", .valuer⟩,
  ⟨b!"Int8ArrayFromUint16Slice", b!"[]uint16", .valuer⟩,
  ⟨b!"Int8ArrayFromUint32Slice", b!"[]uint32", .valuer⟩,
  ⟨b!"Int8ArrayFromUint64Slice", b!"[]uint64", .valuer⟩,
  ⟨b!"Int8ArrayFromUint8Slice", b!"[]uint8", .valuer⟩,
  ⟨b!"Int8ArrayFromUintSlice", b!"[]uint", .valuer⟩,
  ⟨b!"Int8ArrayToFloat32Slice", b!"*[]float32", .scanner⟩]
def convFuncs4 : List ConvFunc := [
  ⟨b!"Int8ArrayToFloat64Slice", b!"*[]float64", .scanner⟩,
  ⟨b!"Int8ArrayToInt16Slice", b!"*[]int16", .scanner⟩,
  ⟨b!"Int8ArrayToInt32Slice", b!"*[]int32", .scanner⟩,
  ⟨b!"Int8ArrayToInt64Slice", b!"*[]int64", .scanner⟩,
  ⟨b!"Int8ArrayToInt8Slice", b!"*[]int8", .scanner⟩,
  ⟨b!"Int8ArrayToIntSlice", b!"*[]int", .scanner⟩,
  ⟨b!"Int8ArrayToUint16Slice", b!"*[]uint16", .scanner⟩,
  ⟨b!"Int8ArrayToUint32Slice", b!"*[]uint32", .scanner⟩,
  ⟨b!"Int8ArrayToUint64Slice", b!"*[]uint64", .scanner⟩,
  ⟨b!"Int8ArrayToUint8Slice", b!"*[]uint8", .scanner⟩,
  ⟨b!"Int8ArrayToUintSlice", b!"*[]uint", .scanner⟩,
  ⟨b!"Int8RangeArrayFromFloat32Array2Slice", b!"[][2]float32", .valuer⟩,
  ⟨b!"Int8RangeArrayFromFloat64Array2Slice", b!"[][2]float64", .valuer⟩,
  ⟨b!"Int8RangeArrayFromInt16Array2Slice", b!"[][2]int16", .valuer⟩,
  ⟨b!"Int8RangeArrayFromInt32Array2Slice", b!"[][2]int32", .valuer⟩,
  ⟨b!"Int8RangeArrayFromInt64Array2Slice", b!"[][2]int64", .valuer⟩,
  ⟨b!"Int8RangeArrayFromInt8Array2Slice", b!"[][2]int8", .valuer⟩,
  ⟨b!"Int8RangeArrayFromIntArray2Slice", b!"[][2]int", .valuer⟩,
  ⟨b!"Int8RangeArrayFromUint16Array2Slice", b!"[][2]uint16", .valuer⟩,
  ⟨b!"Int8RangeArrayFromUint32Array2Slice", b!"[][2]uint32", .valuer⟩,
  ⟨b!"Int8RangeArrayFromUint64Array2Slice", b!"[][2]uint64", .valuer⟩,
  ⟨b!"Int8RangeArrayFromUint8Array2Slice", b!"[][2]uint8", .valuer⟩,
  ⟨b!"Int8RangeArrayFromUintArray2Slice", b!"[][2]uint", .valuer⟩,
  ⟨b!"Int8RangeArrayToFloat32Array2Slice", b!"*[][2]float32", .scanner⟩,
  ⟨b!"Int8RangeArrayToFloat64Array2Slice", b!"*[][2]float64", .scanner⟩,
  ⟨b!"Int8RangeArrayToInt16Array2Slice", b!"*[][2]int16", .scanner⟩,
  ⟨b!"Int8RangeArrayToInt32Array2Slice", b!"*[][2]int32", .scanner⟩,
  ⟨b!"Int8RangeArrayToInt64Array2Slice", b!"*[][2]int64", .scanner⟩,
  ⟨b!"Int8RangeArrayToInt8Array2Slice", b!"*[][2]int8", .scanner⟩,
  ⟨b!"Int8RangeArrayToIntArray2Slice", b!"*[][2]int", .scanner⟩,
  ⟨b!"Int8RangeArrayToUint16Array2Slice", b!"*[][2]uint16", .scanner⟩,
  ⟨b!"Int8RangeArrayToUint32Array2Slice", b!"*[][2]uint32", .scanner⟩,
  ⟨b!"Int8RangeArrayToUint64Array2Slice", b!"*[][2]uint64", .scanner⟩,
  ⟨b!"Int8RangeArrayToUint8Array2Slice", b!"*[][2]uint8", .scanner⟩,
  ⟨b!"Int8RangeArrayToUintArray2Slice", b!"*[][2]uint", .scanner⟩,
  ⟨b!"Int8RangeFromFloat32Array2", b!"[2]float32", .valuer⟩,
  ⟨b!"Int8RangeFromFloat64Array2", b!"[2]float64", .valuer⟩,
  ⟨b!"Int8RangeFromInt16Array2", b!"[2]int16", .valuer⟩,
  ⟨b!"Int8RangeFromInt32Array2", b!"[2]int32", .valuer⟩,
  ⟨b!"Int8RangeFromInt64Array2", b!"[2]int64", .valuer⟩,
  ⟨b!"Int8RangeFromInt8Array2", b!"[2]int8", .valuer⟩,
  ⟨b!"Int8RangeFromIntArray2", b!"[2]int", .valuer⟩,
  ⟨b!"Int8RangeFromUint16Array2", b!"[2]uint16", .valuer⟩,
  ⟨b!"Int8RangeFromUint32Array2", b!"[2]uint32", .valuer⟩,
  ⟨b!"Int8RangeFromUint64Array2", b!"[2]uint64", .valuer⟩,
  ⟨b!"Int8RangeFromUint8Array2", b!"[2]uint8", .valuer⟩,
  ⟨b!"Int8RangeFromUintArray2", b!"[2]uint", .valuer⟩,
  ⟨b!"Int8RangeToFloat32Array2", b!"*[2]float32", .scanner⟩,
  ⟨b!"Int8RangeToFloat64Array2", b!"*[2]float64", .scanner⟩,
  ⟨b!"Int8RangeToInt16Array2", b!"*[2]int16", .scanner⟩,
  ⟨b!"Int8RangeToInt32Array2", b!"*[2]int32", .scanner⟩,
  ⟨b!"Int8RangeToInt64Array2", b!"*[2]int64", .scanner⟩,
  ⟨b!"Int8RangeToInt8Array2", b!"*[2]int8", .scanner⟩,
  ⟨b!"Int8RangeToIntArray2", b!"*[2]int", .scanner⟩,
  ⟨b!"Int8RangeToUint16Array2", b!"*[2]uint16", .scanner⟩,
  ⟨b!"Int8RangeToUint32Array2", b!"*[2]uint32", .scanner⟩,
  ⟨b!"Int8RangeToUint64Array2", b!"*[2]uint64", .scanner⟩,
  ⟨b!"Int8RangeToUint8Array2", b!"*[2]uint8", .scanner⟩,
  ⟨b!"Int8RangeToUintArray2", b!"*[2]uint", .scanner⟩,
  ⟨b!"JSON", b!"interface{}", .both⟩]
def convFuncs5 : List ConvFunc := [
  ⟨b!"JSONArrayFromByteSliceSlice", b!"[][]byte", .valuer⟩,
  ⟨b!"JSONArrayToByteSliceSlice", b!"*[][]byte", .scanner⟩,
  ⟨b!"LineArrayFromFloat64Array3Slice", b!"[][3]float64", .valuer⟩,
  ⟨b!"LineArrayToFloat64Array3Slice", b!"*[][3]float64", .scanner⟩,
  ⟨b!"LineFromFloat64Array3", b!"[3]float64", .valuer⟩,
  ⟨b!"LineToFloat64Array3", b!"*[3]float64", .scanner⟩,
  ⟨b!"LsegArrayFromFloat64Array2Array2Slice", b!"[][2][2]float64", .valuer⟩,
  ⟨b!"LsegArrayToFloat64Array2Array2Slice", b!"*[][2][2]float64", .scanner⟩,
  ⟨b!"LsegFromFloat64Array2Array2", b!"[2][2]float64", .valuer⟩,
  ⟨b!"LsegToFloat64Array2Array2", b!"*[2][2]float64", .scanner⟩,
  ⟨b!"MACAddr8ArrayFromHardwareAddrSlice", b!"[]net.HardwareAddr", .valuer⟩,
  ⟨b!"MACAddr8ArrayToHardwareAddrSlice", b!"*[]net.HardwareAddr", .scanner⟩,
  ⟨b!"MACAddr8FromHardwareAddr", b!"net.HardwareAddr", .valuer⟩,
  ⟨b!"MACAddr8ToHardwareAddr", b!"*net.HardwareAddr", .scanner⟩,
  ⟨b!"MACAddrArrayFromHardwareAddrSlice", b!"[]net.HardwareAddr", .valuer⟩,
  ⟨b!"MACAddrArrayToHardwareAddrSlice", b!"*[]net.HardwareAddr", .scanner⟩,
  ⟨b!"MACAddrFromHardwareAddr", b!"net.HardwareAddr", .valuer⟩,
  ⟨b!"MACAddrToHardwareAddr", b!"*net.HardwareAddr", .scanner⟩,
  ⟨b!"MoneyArrayFromInt64Slice", b!"[]int64", .valuer⟩,
  ⟨b!"MoneyArrayToInt64Slice", b!"*[]int64", .scanner⟩,
  ⟨b!"MoneyFromInt64", b!"int64", .valuer⟩,
  ⟨b!"MoneyToInt64", b!"*int64", .scanner⟩,
  ⟨b!"NumRangeArrayFromFloat32Array2Slice", b!"[][2]float32", .valuer⟩,
  ⟨b!"NumRangeArrayFromFloat64Array2Slice", b!"[][2]float64", .valuer⟩,
  ⟨b!"NumRangeArrayFromInt16Array2Slice", b!"[][2]int16", .valuer⟩,
  ⟨b!"NumRangeArrayFromInt32Array2Slice", b!"[][2]int32", .valuer⟩,
  ⟨b!"NumRangeArrayFromInt64Array2Slice", b!"[][2]int64", .valuer⟩,
  ⟨b!"NumRangeArrayFromInt8Array2Slice", b!"[][2]int8", .valuer⟩,
  ⟨b!"NumRangeArrayFromIntArray2Slice", b!"[][2]int", .valuer⟩,
  ⟨b!"NumRangeArrayFromUint16Array2Slice", b!"[][2]uint16", .valuer⟩,
  ⟨b!"NumRangeArrayFromUint32Array2Slice", b!"[][2]uint32", .valuer⟩,
  ⟨b!"NumRangeArrayFromUint64Array2Slice", b!"[][2]uint64", .valuer⟩,
  ⟨b!"NumRangeArrayFromUint8Array2Slice", b!"[][2]uint8", .valuer⟩,
  ⟨b!"NumRangeArrayFromUintArray2Slice", b!"[][2]uint", .valuer⟩,
  ⟨b!"NumRangeArrayToFloat32Array2Slice", b!"*[][2]float32", .scanner⟩,
  ⟨b!"NumRangeArrayToFloat64Array2Slice", b!"*[][2]float64", .scanner⟩,
  ⟨b!"NumRangeArrayToInt16Array2Slice", b!"*[][2]int16", .scanner⟩,
  ⟨b!"NumRangeArrayToInt32Array2Slice", b!"*[][2]int32", .scanner⟩,
  ⟨b!"NumRangeArrayToInt64Array2Slice", b!"*[][2]int64", .scanner⟩,
  ⟨b!"NumRangeArrayToInt8Array2Slice", b!"*[][2]int8", .scanner⟩,
  ⟨b!"NumRangeArrayToIntArray2Slice", b!"*[][2]int", .scanner⟩,
  ⟨b!"NumRangeArrayToUint16Array2Slice", b!"*[][2]uint16", .scanner⟩,
  ⟨b!"NumRangeArrayToUint32Array2Slice", b!"*[][2]uint32", .scanner⟩,
  ⟨b!"NumRangeArrayToUint64Array2Slice", b!"*[][2]uint64", .scanner⟩,
  ⟨b!"NumRangeArrayToUint8Array2Slice", b!"*[][2]uint8", .scanner⟩,
  ⟨b!"NumRangeArrayToUintArray2Slice", b!"*[][2]uint", .scanner⟩,
  ⟨b!"NumRangeFromFloat32Array2", b!"[2]float32", .valuer⟩,
  ⟨b!"NumRangeFromFloat64Array2", b!"[2]float64", .valuer⟩,
  ⟨b!"NumRangeFromInt16Array2", b!"[2]int16", .valuer⟩,
  ⟨b!"NumRangeFromInt32Array2", b!"[2]int32", .valuer⟩,
  ⟨b!"NumRangeFromInt64Array2", b!"[2]int64", .valuer⟩,
  ⟨b!"NumRangeFromInt8Array2", b!"[2]int8", .valuer⟩,
  ⟨b!"NumRangeFromIntArray2", b!"[2]int", .valuer⟩,
  ⟨b!"NumRangeFromUint16Array2", b!"[2]uint16", .valuer⟩,
  ⟨b!"NumRangeFromUint32Array2", b!"[2]uint32", .valuer⟩,
  ⟨b!"NumRangeFromUint64Array2", b!"[2]uint64", .valuer⟩,
  ⟨b!"NumRangeFromUint8Array2", b!"[2]uint8", .valuer⟩,
  ⟨b!"NumRangeFromUintArray2", b!"[2]uint", .valuer⟩,
  ⟨b!"NumRangeToFloat32Array2", b!"*[2]float32", .scanner⟩,
  ⟨b!"NumRangeToFloat64Array2", b!"*[2]float64", .scanner⟩]
def convFuncs6 : List ConvFunc := [
  ⟨b!"NumRangeToInt16Array2", b!"*[2]int16", .scanner⟩,
  ⟨b!"NumRangeToInt32Array2", b!"*[2]int32", .scanner⟩,
  ⟨b!"NumRangeToInt64Array2", b!"*[2]int64", .scanner⟩,
  ⟨b!"NumRangeToInt8Array2", b!"*[2]int8", .scanner⟩,
  ⟨b!"NumRangeToIntArray2", b!"*[2]int", .scanner⟩,
  ⟨b!"NumRangeToUint16Array2", b!"*[2]uint16", .scanner⟩,
  ⟨b!"NumRangeToUint32Array2", b!"*[2]uint32", .scanner⟩,
  ⟨b!"NumRangeToUint64Array2", b!"*[2]uint64", .scanner⟩,
  ⟨b!"NumRangeToUint8Array2", b!"*[2]uint8", .scanner⟩,
  ⟨b!"NumRangeToUintArray2", b!"*[2]uint", .scanner⟩,
  ⟨b!"NumericArrayFromFloat32Slice", b!"[]float32", .valuer⟩,
  ⟨b!"NumericArrayFromFloat64Slice", b!"[]float64", .valuer⟩,
  ⟨b!"NumericArrayFromInt16Slice", b!"[]int16", .valuer⟩,
  ⟨b!"NumericArrayFromInt32Slice", b!"[]int32", .valuer⟩,
  ⟨b!"NumericArrayFromInt64Slice", b!"[]int64", .valuer⟩,
  ⟨b!"NumericArrayFromInt8Slice", b!"[]int8", .valuer⟩,
  ⟨b!"NumericArrayFromIntSlice", b!"[]int", .valuer⟩,
  ⟨b!"NumericArrayFromUint16Slice", b!"[]uint16", .valuer⟩,
  ⟨b!"NumericArrayFromUint32Slice", b!"[]uint32", .valuer⟩,
  ⟨b!"NumericArrayFromUint64Slice", b!"[]uint64", .valuer⟩,
  ⟨b!"NumericArrayFromUint8Slice", b!"[]uint8", .valuer⟩,
  ⟨b!"NumericArrayFromUintSlice", b!"[]uint", .valuer⟩,
  ⟨b!"NumericArrayToFloat32Slice", b!"*[]float32", .scanner⟩,
  ⟨b!"NumericArrayToFloat64Slice", b!"*[]float64", .scanner⟩,
  ⟨b!"NumericArrayToInt16Slice", b!"*[]int16", .scanner⟩,
  ⟨b!"NumericArrayToInt32Slice", b!"*[]int32", .scanner⟩,
  ⟨b!"NumericArrayToInt64Slice", b!"*[]int64", .scanner⟩,
  ⟨b!"NumericArrayToInt8Slice", b!"*[]int8", .scanner⟩,
  ⟨b!"NumericArrayToIntSlice", b!"*[]int", .scanner⟩,
  ⟨b!"NumericArrayToUint16Slice", b!"*[]uint16", .scanner⟩,
  ⟨b!"NumericArrayToUint32Slice", b!"*[]uint32", .scanner⟩,
  ⟨b!"NumericArrayToUint64Slice", b!"*[]uint64", .scanner⟩,
  ⟨b!"NumericArrayToUint8Slice", b!"*[]uint8", .scanner⟩,
  ⟨b!"NumericArrayToUintSlice", b!"*[]uint", .scanner⟩,
  ⟨b!"PathArrayFromFloat64Array2SliceSlice", b!"[][][2]float64", .valuer⟩,
  ⟨b!"PathArrayToFloat64Array2SliceSlice", b!"*[][][2]float64", .scanner⟩,
  ⟨b!"PathFromFloat64Array2Slice", b!"[][2]float64", .valuer⟩,
  ⟨b!"PathToFloat64Array2Slice", b!"*[][2]float64", .scanner⟩,
  ⟨b!"PointArrayFromFloat64Array2Slice", b!"[][2]float64", .valuer⟩,
  ⟨b!"PointArrayToFloat64Array2Slice", b!"*[][2]float64", .scanner⟩,
  ⟨b!"PointFromFloat64Array2", b!"[2]float64", .valuer⟩,
  ⟨b!"PointToFloat64Array2", b!"*[2]float64", .scanner⟩,
  ⟨b!"PolygonArrayFromFloat64Array2SliceSlice", b!"[][][2]float64", .valuer⟩,
  ⟨b!"PolygonArrayToFloat64Array2SliceSlice", b!"*[][][2]float64", .scanner⟩,
  ⟨b!"PolygonFromFloat64Array2Slice", b!"[][2]float64", .valuer⟩,
  ⟨b!"PolygonToFloat64Array2Slice", b!"*[][2]float64", .scanner⟩,
  ⟨b!"TSQueryArrayFromByteSliceSlice", b!"[][]byte", .valuer⟩,
  ⟨b!"TSQueryArrayFromStringSlice", b!"[]string", .valuer⟩,
  ⟨b!"TSQueryArrayToByteSliceSlice", b!"*[][]byte", .scanner⟩,
  ⟨b!"TSQueryArrayToStringSlice", b!"*[]string", .scanner⟩,
  ⟨b!"TSVectorArrayFromByteSliceSliceSlice", b!"[][][]byte", .valuer⟩,
  ⟨b!"TSVectorArrayFromStringSliceSlice", b!"[][]string", .valuer⟩,
  ⟨b!"TSVectorArrayToByteSliceSliceSlice", b!"*[][][]byte", .scanner⟩,
  ⟨b!"TSVectorArrayToStringSliceSlice", b!"*[][]string", .scanner⟩,
  ⟨b!"TSVectorFromByteSliceSlice", b!"[][]byte", .valuer⟩,
  ⟨b!"TSVectorFromStringSlice", b!"[]string", .valuer⟩,
  ⟨b!"TSVectorToByteSliceSlice", b!"*[][]byte", .scanner⟩,
  ⟨b!"TSVectorToStringSlice", b!"*[]string", .scanner⟩,
  ⟨b!"TextArrayFromByteSliceSlice", b!"[][]byte", .valuer⟩,
  ⟨b!"TextArrayFromStringSlice", b!"[]string", .valuer⟩]
def convFuncs7 : List ConvFunc := [
  ⟨b!"TextArrayToByteSliceSlice", b!"*[][]byte", .scanner⟩,
  ⟨b!"TextArrayToStringSlice", b!"*[]string", .scanner⟩,
  ⟨b!"TimeArrayFromTimeSlice", b!"[]time.Time", .valuer⟩,
  ⟨b!"TimeArrayToTimeSlice", b!"*[]time.Time", .scanner⟩,
  ⟨b!"TimeToByteSlice", b!"*[]byte", .scanner⟩,
  ⟨b!"TimeToString", b!"*string", .scanner⟩,
  ⟨b!"TimestampArrayFromTimeSlice", b!"[]time.Time", .valuer⟩,
  ⟨b!"TimestampArrayToTimeSlice", b!"*[]time.Time", .scanner⟩,
  ⟨b!"TimestamptzArrayFromTimeSlice", b!"[]time.Time", .valuer⟩,
  ⟨b!"TimestamptzArrayToTimeSlice", b!"*[]time.Time", .scanner⟩,
  ⟨b!"TimetzArrayFromTimeSlice", b!"[]time.Time", .valuer⟩,
  ⟨b!"TimetzArrayToTimeSlice", b!"*[]time.Time", .scanner⟩,
  ⟨b!"TimetzToByteSlice", b!"*[]byte", .scanner⟩,
  ⟨b!"TimetzToString", b!"*string", .scanner⟩,
  ⟨b!"TsRangeArrayFromTimeArray2Slice", b!"[][2]time.Time", .valuer⟩,
  ⟨b!"TsRangeArrayToTimeArray2Slice", b!"*[][2]time.Time", .scanner⟩,
  ⟨b!"TsRangeFromTimeArray2", b!"[2]time.Time", .valuer⟩,
  ⟨b!"TsRangeToTimeArray2", b!"*[2]time.Time", .scanner⟩,
  ⟨b!"TstzRangeArrayFromTimeArray2Slice", b!"[][2]time.Time", .valuer⟩,
  ⟨b!"TstzRangeArrayToTimeArray2Slice", b!"*[][2]time.Time", .scanner⟩,
  ⟨b!"TstzRangeFromTimeArray2", b!"[2]time.Time", .valuer⟩,
  ⟨b!"TstzRangeToTimeArray2", b!"*[2]time.Time", .scanner⟩,
  ⟨b!"UUIDArrayFromByteArray16Slice", b!"[][16]byte", .valuer⟩,
  ⟨b!"UUIDArrayFromByteSliceSlice", b!"[][]byte", .valuer⟩,
  ⟨b!"UUIDArrayFromStringSlice", b!"[]string", .valuer⟩,
  ⟨b!"UUIDArrayToByteArray16Slice", b!"*[][16]byte", .scanner⟩,
  ⟨b!"UUIDArrayToByteSliceSlice", b!"*[][]byte", .scanner⟩,
  ⟨b!"UUIDArrayToStringSlice", b!"*[]string", .scanner⟩,
  ⟨b!"UUIDFromByteArray16", b!"[16]byte", .valuer⟩,
  ⟨b!"UUIDToByteArray16", b!"*[16]byte", .scanner⟩,
  ⟨b!"VarBitArrayFromBoolSliceSlice", b!"[][]bool", .valuer⟩,
  ⟨b!"VarBitArrayFromInt64Slice", b!"[]int64", .valuer⟩,
  ⟨b!"VarBitArrayFromStringSlice", b!"[]string", .valuer⟩,
  ⟨b!"VarBitArrayFromUint8SliceSlice", b!"[][]uint8", .valuer⟩,
  ⟨b!"VarBitArrayToBoolSliceSlice", b!"*[][]bool", .scanner⟩,
  ⟨b!"VarBitArrayToInt64Slice", b!"*[]int64", .scanner⟩,
  ⟨b!"VarBitArrayToStringSlice", b!"*[]string", .scanner⟩,
  ⟨b!"VarBitArrayToUint8SliceSlice", b!"*[][]uint8", .scanner⟩,
  ⟨b!"VarBitFromBoolSlice", b!"[]bool", .valuer⟩,
  ⟨b!"VarBitFromInt64", b!"int64", .valuer⟩,
  ⟨b!"VarBitFromUint8Slice", b!"[]uint8", .valuer⟩,
  ⟨b!"VarBitToBoolSlice", b!"*[]bool", .scanner⟩,
  ⟨b!"VarBitToInt64", b!"*int64", .scanner⟩,
  ⟨b!"VarBitToUint8Slice", b!"*[]uint8", .scanner⟩,
  ⟨b!"VarCharArrayFromByteSliceSlice", b!"[][]byte", .valuer⟩,
  ⟨b!"VarCharArrayFromStringSlice", b!"[]string", .valuer⟩,
  ⟨b!"VarCharArrayToByteSliceSlice", b!"*[][]byte", .scanner⟩,
  ⟨b!"VarCharArrayToStringSlice", b!"*[]string", .scanner⟩,
  ⟨b!"XML", b!"interface{}", .both⟩,
  ⟨b!"XMLArrayFromByteSliceSlice", b!"[][]byte", .valuer⟩,
  ⟨b!"XMLArrayToByteSliceSlice", b!"*[][]byte", .scanner⟩]

/-- The exported functions of /repo/pgsql that make converters. -/
def convFuncs : List ConvFunc :=
  convFuncs0 ++ convFuncs1 ++ convFuncs2 ++ convFuncs3 ++ convFuncs4 ++ convFuncs5 ++ convFuncs6 ++ convFuncs7

end Verif.Postgres
