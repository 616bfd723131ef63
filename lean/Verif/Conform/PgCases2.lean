import Verif.Conform.PgServer

/-
Cases of the tests of package pgsql, /repo/pgsql/*_test.go. Written by /verif/tools/pgsqlcases.py.
-/
namespace Verif.Conform.Codec
open Verif Verif.Pgsql Verif.PgServer

/-- /repo/pgsql/inet_test.go: 10 cases with a valuer and a scanner, 8 texts. -/
def inetFile : File where
  name := "inet_test.go"
  col := inet
  cases := [
    ⟨13, stored (inetFromNet ⟨none, none⟩), fun r => gives (inetToNet ⟨none, none⟩ r) ⟨none, none⟩⟩,
    ⟨16, stored (inetFromNet ⟨some [192, 168, 100, 128], some [255, 255, 255, 128]⟩), fun r => gives (inetToNet ⟨none, none⟩ r) ⟨some [192, 168, 100, 128], some [255, 255, 255, 128]⟩⟩,
    ⟨19, stored (inetFromNet ⟨some [128, 1, 0, 0], some [255, 255, 0, 0]⟩), fun r => gives (inetToNet ⟨none, none⟩ r) ⟨some [128, 1, 0, 0], some [255, 255, 0, 0]⟩⟩,
    ⟨22, stored (inetFromNet ⟨some [32, 1, 4, 248, 0, 3, 0, 186, 0, 0, 0, 0, 0, 0, 0, 0], some [255, 255, 255, 255, 255, 255, 255, 255, 0, 0, 0, 0, 0, 0, 0, 0]⟩), fun r => gives (inetToNet ⟨none, none⟩ r) ⟨some [32, 1, 4, 248, 0, 3, 0, 186, 0, 0, 0, 0, 0, 0, 0, 0], some [255, 255, 255, 255, 255, 255, 255, 255, 0, 0, 0, 0, 0, 0, 0, 0]⟩⟩,
    ⟨25, stored (inetFromNet ⟨some [32, 1, 4, 248, 0, 3, 0, 186, 0, 0, 0, 0, 0, 0, 0, 0], some [255, 255, 255, 255, 255, 255, 255, 255, 0, 0, 0, 0, 0, 0, 0, 0]⟩), fun r => gives (inetToNet ⟨none, none⟩ r) ⟨some [32, 1, 4, 248, 0, 3, 0, 186, 0, 0, 0, 0, 0, 0, 0, 0], some [255, 255, 255, 255, 255, 255, 255, 255, 0, 0, 0, 0, 0, 0, 0, 0]⟩⟩,
    ⟨28, stored (inetFromNet ⟨some [32, 1, 4, 248, 0, 3, 0, 186, 2, 224, 129, 255, 254, 34, 209, 241], some [255, 255, 255, 255, 255, 255, 255, 255, 255, 255, 255, 255, 255, 255, 255, 255]⟩), fun r => gives (inetToNet ⟨none, none⟩ r) ⟨(some [32, 1, 4, 248, 0, 3, 0, 186, 2, 224, 129, 255, 254, 34, 209, 241]), none⟩⟩,
    ⟨36, stored (inetFromIP none), fun r => gives (inetToIP none r) none⟩,
    ⟨39, stored (inetFromIP (some [0, 0, 0, 0, 0, 0, 0, 0, 0, 0, 255, 255, 192, 168, 100, 128])), fun r => gives (inetToIP none r) (some [0, 0, 0, 0, 0, 0, 0, 0, 0, 0, 255, 255, 192, 168, 100, 128])⟩,
    ⟨42, stored (inetFromIP (some [0, 0, 0, 0, 0, 0, 0, 0, 0, 0, 255, 255, 128, 1, 0, 0])), fun r => gives (inetToIP none r) (some [0, 0, 0, 0, 0, 0, 0, 0, 0, 0, 255, 255, 128, 1, 0, 0])⟩,
    ⟨45, stored (inetFromIP (some [32, 1, 4, 248, 0, 3, 0, 186, 2, 224, 129, 255, 254, 34, 209, 241])), fun r => gives (inetToIP none r) (some [32, 1, 4, 248, 0, 3, 0, 186, 2, 224, 129, 255, 254, 34, 209, 241])⟩]
  texts := [
    (51, b!"192.168.100.128/25", b!"192.168.100.128/25"),
    (54, b!"128.1.0.0/16", b!"128.1.0.0/16"),
    (57, b!"2001:4f8:3:ba::/64", b!"2001:4f8:3:ba::/64"),
    (60, b!"2001:4f8:3:ba:2e0:81ff:fe22:d1f1/128", b!"2001:4f8:3:ba:2e0:81ff:fe22:d1f1"),
    (66, b!"192.168.100.128/25", b!"192.168.100.128/25"),
    (69, b!"128.1.0.0/16", b!"128.1.0.0/16"),
    (72, b!"2001:4f8:3:ba::/64", b!"2001:4f8:3:ba::/64"),
    (75, b!"2001:4f8:3:ba:2e0:81ff:fe22:d1f1/128", b!"2001:4f8:3:ba:2e0:81ff:fe22:d1f1")]

theorem inet_ok : inetFile.ok = true := by decide +kernel

/-- /repo/pgsql/inetarr_test.go: 10 cases with a valuer and a scanner, 8 texts. -/
def inetarrFile : File where
  name := "inetarr_test.go"
  col := arrayOf inet
  cases := [
    ⟨13, stored (netArrValue none), fun r => gives (inetArrToNets none r) none⟩,
    ⟨16, stored (netArrValue (some [⟨some [192, 168, 100, 128], some [255, 255, 255, 128]⟩])), fun r => gives (inetArrToNets none r) (some [⟨some [192, 168, 100, 128], some [255, 255, 255, 128]⟩])⟩,
    ⟨19, stored (netArrValue (some [⟨some [192, 168, 100, 128], some [255, 255, 255, 128]⟩, ⟨some [128, 1, 0, 0], some [255, 255, 0, 0]⟩])), fun r => gives (inetArrToNets none r) (some [⟨some [192, 168, 100, 128], some [255, 255, 255, 128]⟩, ⟨some [128, 1, 0, 0], some [255, 255, 0, 0]⟩])⟩,
    ⟨22, stored (netArrValue (some [⟨some [32, 1, 4, 248, 0, 3, 0, 186, 0, 0, 0, 0, 0, 0, 0, 0], some [255, 255, 255, 255, 255, 255, 255, 255, 0, 0, 0, 0, 0, 0, 0, 0]⟩, ⟨some [128, 1, 0, 0], some [255, 255, 0, 0]⟩])), fun r => gives (inetArrToNets none r) (some [⟨some [32, 1, 4, 248, 0, 3, 0, 186, 0, 0, 0, 0, 0, 0, 0, 0], some [255, 255, 255, 255, 255, 255, 255, 255, 0, 0, 0, 0, 0, 0, 0, 0]⟩, ⟨some [128, 1, 0, 0], some [255, 255, 0, 0]⟩])⟩,
    ⟨25, stored (netArrValue (some [⟨some [32, 1, 4, 248, 0, 3, 0, 186, 2, 224, 129, 255, 254, 34, 209, 241], some [255, 255, 255, 255, 255, 255, 255, 255, 255, 255, 255, 255, 255, 255, 255, 255]⟩, ⟨some [32, 1, 4, 248, 0, 3, 0, 186, 0, 0, 0, 0, 0, 0, 0, 0], some [255, 255, 255, 255, 255, 255, 255, 255, 0, 0, 0, 0, 0, 0, 0, 0]⟩])), fun r => gives (inetArrToNets none r) (some [⟨(some [32, 1, 4, 248, 0, 3, 0, 186, 2, 224, 129, 255, 254, 34, 209, 241]), none⟩, ⟨some [32, 1, 4, 248, 0, 3, 0, 186, 0, 0, 0, 0, 0, 0, 0, 0], some [255, 255, 255, 255, 255, 255, 255, 255, 0, 0, 0, 0, 0, 0, 0, 0]⟩])⟩,
    ⟨33, stored (ipArrValue none), fun r => gives (inetArrToIPs none r) none⟩,
    ⟨36, stored (ipArrValue (some [(some [0, 0, 0, 0, 0, 0, 0, 0, 0, 0, 255, 255, 192, 168, 100, 128])])), fun r => gives (inetArrToIPs none r) (some [(some [0, 0, 0, 0, 0, 0, 0, 0, 0, 0, 255, 255, 192, 168, 100, 128])])⟩,
    ⟨39, stored (ipArrValue (some [(some [0, 0, 0, 0, 0, 0, 0, 0, 0, 0, 255, 255, 192, 168, 100, 128]), (some [0, 0, 0, 0, 0, 0, 0, 0, 0, 0, 255, 255, 128, 1, 0, 0])])), fun r => gives (inetArrToIPs none r) (some [(some [0, 0, 0, 0, 0, 0, 0, 0, 0, 0, 255, 255, 192, 168, 100, 128]), (some [0, 0, 0, 0, 0, 0, 0, 0, 0, 0, 255, 255, 128, 1, 0, 0])])⟩,
    ⟨42, stored (ipArrValue (some [(some [32, 1, 4, 248, 0, 3, 0, 186, 0, 0, 0, 0, 0, 0, 0, 0]), (some [0, 0, 0, 0, 0, 0, 0, 0, 0, 0, 255, 255, 128, 1, 0, 0])])), fun r => gives (inetArrToIPs none r) (some [(some [32, 1, 4, 248, 0, 3, 0, 186, 0, 0, 0, 0, 0, 0, 0, 0]), (some [0, 0, 0, 0, 0, 0, 0, 0, 0, 0, 255, 255, 128, 1, 0, 0])])⟩,
    ⟨45, stored (ipArrValue (some [(some [32, 1, 4, 248, 0, 3, 0, 186, 2, 224, 129, 255, 254, 34, 209, 241]), (some [32, 1, 4, 248, 0, 3, 0, 186, 0, 0, 0, 0, 0, 0, 0, 0])])), fun r => gives (inetArrToIPs none r) (some [(some [32, 1, 4, 248, 0, 3, 0, 186, 2, 224, 129, 255, 254, 34, 209, 241]), (some [32, 1, 4, 248, 0, 3, 0, 186, 0, 0, 0, 0, 0, 0, 0, 0])])⟩]
  texts := [
    (51, b!"{192.168.100.128}", b!"{192.168.100.128}"),
    (54, b!"{192.168.100.128,128.1.0.0}", b!"{192.168.100.128,128.1.0.0}"),
    (57, b!"{2001:4f8:3:ba::,128.1.0.0}", b!"{2001:4f8:3:ba::,128.1.0.0}"),
    (60, b!"{2001:4f8:3:ba:2e0:81ff:fe22:d1f1,2001:4f8:3:ba::}", b!"{2001:4f8:3:ba:2e0:81ff:fe22:d1f1,2001:4f8:3:ba::}"),
    (66, b!"{192.168.100.128}", b!"{192.168.100.128}"),
    (69, b!"{192.168.100.128,128.1.0.0}", b!"{192.168.100.128,128.1.0.0}"),
    (72, b!"{2001:4f8:3:ba::,128.1.0.0}", b!"{2001:4f8:3:ba::,128.1.0.0}"),
    (75, b!"{2001:4f8:3:ba:2e0:81ff:fe22:d1f1,2001:4f8:3:ba::}", b!"{2001:4f8:3:ba:2e0:81ff:fe22:d1f1,2001:4f8:3:ba::}")]

theorem inetarr_ok : inetarrFile.ok = true := by decide +kernel

/-- /repo/pgsql/int2arr_test.go: 12 cases with a valuer and a scanner, 2 texts. -/
def int2arrFile : File where
  name := "int2arr_test.go"
  col := arrayOf (intBits 16)
  cases := [
    ⟨12, stored (intArrValue (some [(-32768), 32767])), fun r => gives (intArrScan (scanner "int2ArrayToIntSlice") none r) (some [(-32768), 32767])⟩,
    ⟨20, stored (intArrValue (some [(-128), 127])), fun r => gives (intArrScan (scanner "int2ArrayToInt8Slice") none r) (some [(-128), 127])⟩,
    ⟨28, stored (intArrValue (some [(-32768), 32767])), fun r => gives (intArrScan (scanner "int2ArrayToInt16Slice") none r) (some [(-32768), 32767])⟩,
    ⟨36, stored (intArrValue (some [(-32768), 32767])), fun r => gives (intArrScan (scanner "int2ArrayToInt32Slice") none r) (some [(-32768), 32767])⟩,
    ⟨44, stored (intArrValue (some [(-32768), 32767])), fun r => gives (intArrScan (scanner "int2ArrayToInt64Slice") none r) (some [(-32768), 32767])⟩,
    ⟨52, stored (intArrValue (some [0, 32767])), fun r => gives (intArrScan (scanner "int2ArrayToUintSlice") none r) (some [0, 32767])⟩,
    ⟨60, stored (intArrValue (some [0, 255])), fun r => gives (intArrScan (scanner "int2ArrayToUint8Slice") none r) (some [0, 255])⟩,
    ⟨68, stored (intArrValue (some [0, 32767])), fun r => gives (intArrScan (scanner "int2ArrayToUint16Slice") none r) (some [0, 32767])⟩,
    ⟨76, stored (intArrValue (some [0, 32767])), fun r => gives (intArrScan (scanner "int2ArrayToUint32Slice") none r) (some [0, 32767])⟩,
    ⟨84, stored (intArrValue (some [0, 32767])), fun r => gives (intArrScan (scanner "int2ArrayToUint64Slice") none r) (some [0, 32767])⟩,
    ⟨92, stored (intArrValue (some [0, 32767])), fun r => gives (intArrScan (scanner "int2ArrayToFloat32Slice") none r) (some [0, 32767])⟩,
    ⟨100, stored (intArrValue (some [0, 32767])), fun r => gives (intArrScan (scanner "int2ArrayToFloat64Slice") none r) (some [0, 32767])⟩]
  texts := [
    (106, b!"{-32768,32767}", b!"{-32768,32767}"),
    (112, b!"{-32768,32767}", b!"{-32768,32767}")]

theorem int2arr_ok : int2arrFile.ok = true := by decide +kernel

/-- /repo/pgsql/int2vector_test.go: 12 cases with a valuer and a scanner, 2 texts. -/
def int2vectorFile : File where
  name := "int2vector_test.go"
  col := int2vector
  cases := [
    ⟨12, stored (vecValue (some [(-32768), 32767])), fun r => gives (vecScan (scanner "int2VectorToIntSlice") none r) (some [(-32768), 32767])⟩,
    ⟨20, stored (vecValue (some [(-128), 127])), fun r => gives (vecScan (scanner "int2VectorToInt8Slice") none r) (some [(-128), 127])⟩,
    ⟨28, stored (vecValue (some [(-32768), 32767])), fun r => gives (vecScan (scanner "int2VectorToInt16Slice") none r) (some [(-32768), 32767])⟩,
    ⟨36, stored (vecValue (some [(-32768), 32767])), fun r => gives (vecScan (scanner "int2VectorToInt32Slice") none r) (some [(-32768), 32767])⟩,
    ⟨44, stored (vecValue (some [(-32768), 32767])), fun r => gives (vecScan (scanner "int2VectorToInt64Slice") none r) (some [(-32768), 32767])⟩,
    ⟨52, stored (vecValue (some [0, 32767])), fun r => gives (vecScan (scanner "int2VectorToUintSlice") none r) (some [0, 32767])⟩,
    ⟨60, stored (vecValue (some [0, 255])), fun r => gives (vecScan (scanner "int2VectorToUint8Slice") none r) (some [0, 255])⟩,
    ⟨68, stored (vecValue (some [0, 32767])), fun r => gives (vecScan (scanner "int2VectorToUint16Slice") none r) (some [0, 32767])⟩,
    ⟨76, stored (vecValue (some [0, 32767])), fun r => gives (vecScan (scanner "int2VectorToUint32Slice") none r) (some [0, 32767])⟩,
    ⟨84, stored (vecValue (some [0, 32767])), fun r => gives (vecScan (scanner "int2VectorToUint64Slice") none r) (some [0, 32767])⟩,
    ⟨92, stored (vecValue (some [0, 32767])), fun r => gives (vecScan (scanner "int2VectorToFloat32Slice") none r) (some [0, 32767])⟩,
    ⟨100, stored (vecValue (some [0, 32767])), fun r => gives (vecScan (scanner "int2VectorToFloat64Slice") none r) (some [0, 32767])⟩]
  texts := [
    (106, b!"-32768 32767", b!"-32768 32767"),
    (112, b!"-32768 32767", b!"-32768 32767")]

theorem int2vector_ok : int2vectorFile.ok = true := by decide +kernel

/-- /repo/pgsql/int2vectorarr_test.go: 12 cases with a valuer and a scanner, 2 texts. -/
def int2vectorarrFile : File where
  name := "int2vectorarr_test.go"
  col := arrayOf int2vector
  cases := [
    ⟨12, stored (vecArrValue (some [[(-32768), 32767], [0, 1, 2, 3]])), fun r => gives (vecArrScan (scanner "int2VectorArrayToIntSliceSlice") none r) (some [[(-32768), 32767], [0, 1, 2, 3]])⟩,
    ⟨20, stored (vecArrValue (some [[(-128), 127], [0, 1, 2, 3]])), fun r => gives (vecArrScan (scanner "int2VectorArrayToInt8SliceSlice") none r) (some [[(-128), 127], [0, 1, 2, 3]])⟩,
    ⟨28, stored (vecArrValue (some [[(-32768), 32767], [0, 1, 2, 3]])), fun r => gives (vecArrScan (scanner "int2VectorArrayToInt16SliceSlice") none r) (some [[(-32768), 32767], [0, 1, 2, 3]])⟩,
    ⟨36, stored (vecArrValue (some [[(-32768), 32767], [0, 1, 2, 3]])), fun r => gives (vecArrScan (scanner "int2VectorArrayToInt32SliceSlice") none r) (some [[(-32768), 32767], [0, 1, 2, 3]])⟩,
    ⟨44, stored (vecArrValue (some [[(-32768), 32767], [0, 1, 2, 3]])), fun r => gives (vecArrScan (scanner "int2VectorArrayToInt64SliceSlice") none r) (some [[(-32768), 32767], [0, 1, 2, 3]])⟩,
    ⟨52, stored (vecArrValue (some [[0, 32767], [0, 1, 2, 3]])), fun r => gives (vecArrScan (scanner "int2VectorArrayToUintSliceSlice") none r) (some [[0, 32767], [0, 1, 2, 3]])⟩,
    ⟨60, stored (vecArrValue (some [[0, 255], [0, 1, 2, 3]])), fun r => gives (vecArrScan (scanner "int2VectorArrayToUint8SliceSlice") none r) (some [[0, 255], [0, 1, 2, 3]])⟩,
    ⟨68, stored (vecArrValue (some [[0, 32767], [0, 1, 2, 3]])), fun r => gives (vecArrScan (scanner "int2VectorArrayToUint16SliceSlice") none r) (some [[0, 32767], [0, 1, 2, 3]])⟩,
    ⟨76, stored (vecArrValue (some [[0, 32767], [0, 1, 2, 3]])), fun r => gives (vecArrScan (scanner "int2VectorArrayToUint32SliceSlice") none r) (some [[0, 32767], [0, 1, 2, 3]])⟩,
    ⟨84, stored (vecArrValue (some [[0, 32767], [0, 1, 2, 3]])), fun r => gives (vecArrScan (scanner "int2VectorArrayToUint64SliceSlice") none r) (some [[0, 32767], [0, 1, 2, 3]])⟩,
    ⟨92, stored (vecArrValue (some [[(-32768), 32767], [0, 1, 2, 3]])), fun r => gives (vecArrScan (scanner "int2VectorArrayToFloat32SliceSlice") none r) (some [[(-32768), 32767], [0, 1, 2, 3]])⟩,
    ⟨100, stored (vecArrValue (some [[(-32768), 32767], [0, 1, 2, 3]])), fun r => gives (vecArrScan (scanner "int2VectorArrayToFloat64SliceSlice") none r) (some [[(-32768), 32767], [0, 1, 2, 3]])⟩]
  texts := [
    (106, b!"{\"-32768 32767\",\"0 1 2 3\"}", b!"{\"-32768 32767\",\"0 1 2 3\"}"),
    (112, b!"{\"-32768 32767\",\"0 1 2 3\"}", b!"{\"-32768 32767\",\"0 1 2 3\"}")]

theorem int2vectorarr_ok : int2vectorarrFile.ok = true := by decide +kernel

/-- /repo/pgsql/int4arr_test.go: 12 cases with a valuer and a scanner, 2 texts. -/
def int4arrFile : File where
  name := "int4arr_test.go"
  col := arrayOf (intBits 32)
  cases := [
    ⟨12, stored (intArrValue (some [(-2147483648), 2147483647])), fun r => gives (intArrScan (scanner "int4ArrayToIntSlice") none r) (some [(-2147483648), 2147483647])⟩,
    ⟨20, stored (intArrValue (some [(-128), 127])), fun r => gives (intArrScan (scanner "int4ArrayToInt8Slice") none r) (some [(-128), 127])⟩,
    ⟨28, stored (intArrValue (some [(-32768), 32767])), fun r => gives (intArrScan (scanner "int4ArrayToInt16Slice") none r) (some [(-32768), 32767])⟩,
    ⟨36, stored (intArrValue (some [(-2147483648), 2147483647])), fun r => gives (intArrScan (scanner "int4ArrayToInt32Slice") none r) (some [(-2147483648), 2147483647])⟩,
    ⟨44, stored (intArrValue (some [(-2147483648), 2147483647])), fun r => gives (intArrScan (scanner "int4ArrayToInt64Slice") none r) (some [(-2147483648), 2147483647])⟩,
    ⟨52, stored (intArrValue (some [0, 2147483647])), fun r => gives (intArrScan (scanner "int4ArrayToUintSlice") none r) (some [0, 2147483647])⟩,
    ⟨60, stored (intArrValue (some [0, 255])), fun r => gives (intArrScan (scanner "int4ArrayToUint8Slice") none r) (some [0, 255])⟩,
    ⟨68, stored (intArrValue (some [0, 65535])), fun r => gives (intArrScan (scanner "int4ArrayToUint16Slice") none r) (some [0, 65535])⟩,
    ⟨76, stored (intArrValue (some [0, 2147483647])), fun r => gives (intArrScan (scanner "int4ArrayToUint32Slice") none r) (some [0, 2147483647])⟩,
    ⟨84, stored (intArrValue (some [0, 2147483647])), fun r => gives (intArrScan (scanner "int4ArrayToUint64Slice") none r) (some [0, 2147483647])⟩,
    ⟨92, stored (intArrValue (some [0, 214748368])), fun r => gives (intArrScan (scanner "int4ArrayToFloat32Slice") none r) (some [0, 214748368])⟩,
    ⟨100, stored (intArrValue (some [0, 2147483647])), fun r => gives (intArrScan (scanner "int4ArrayToFloat64Slice") none r) (some [0, 2147483647])⟩]
  texts := [
    (106, b!"{-2147483648,2147483647}", b!"{-2147483648,2147483647}"),
    (112, b!"{-2147483648,2147483647}", b!"{-2147483648,2147483647}")]

theorem int4arr_ok : int4arrFile.ok = true := by decide +kernel

/-- /repo/pgsql/int4range_test.go: 12 cases with a valuer and a scanner, 2 texts. -/
def int4rangeFile : File where
  name := "int4range_test.go"
  col := intRange
  cases := [
    ⟨12, .text (rangeValue ((-2147483648), 2147483647)), fun r => gives (rangeScan (scanner "int4RangeToIntArray2") (0, 0) r) ((-2147483648), 2147483647)⟩,
    ⟨20, .text (rangeValue ((-128), 127)), fun r => gives (rangeScan (scanner "int4RangeToInt8Array2") (0, 0) r) ((-128), 127)⟩,
    ⟨28, .text (rangeValue ((-32768), 32767)), fun r => gives (rangeScan (scanner "int4RangeToInt16Array2") (0, 0) r) ((-32768), 32767)⟩,
    ⟨36, .text (rangeValue ((-2147483648), 2147483647)), fun r => gives (rangeScan (scanner "int4RangeToInt32Array2") (0, 0) r) ((-2147483648), 2147483647)⟩,
    ⟨44, .text (rangeValue ((-2147483648), 2147483647)), fun r => gives (rangeScan (scanner "int4RangeToInt64Array2") (0, 0) r) ((-2147483648), 2147483647)⟩,
    ⟨52, .text (rangeValue (0, 2147483647)), fun r => gives (rangeScan (scanner "int4RangeToUintArray2") (0, 0) r) (0, 2147483647)⟩,
    ⟨60, .text (rangeValue (0, 255)), fun r => gives (rangeScan (scanner "int4RangeToUint8Array2") (0, 0) r) (0, 255)⟩,
    ⟨68, .text (rangeValue (0, 65535)), fun r => gives (rangeScan (scanner "int4RangeToUint16Array2") (0, 0) r) (0, 65535)⟩,
    ⟨76, .text (rangeValue (0, 2147483647)), fun r => gives (rangeScan (scanner "int4RangeToUint32Array2") (0, 0) r) (0, 2147483647)⟩,
    ⟨84, .text (rangeValue (0, 2147483647)), fun r => gives (rangeScan (scanner "int4RangeToUint64Array2") (0, 0) r) (0, 2147483647)⟩,
    ⟨92, .text (rangeValue ((-2147483648), 214748368)), fun r => gives (rangeScan (scanner "int4RangeToFloat32Array2") (0, 0) r) ((-2147483648), 214748368)⟩,
    ⟨100, .text (rangeValue ((-2147483648), 2147483647)), fun r => gives (rangeScan (scanner "int4RangeToFloat64Array2") (0, 0) r) ((-2147483648), 2147483647)⟩]
  texts := [
    (106, b!"[-2147483648,2147483647)", b!"[-2147483648,2147483647)"),
    (112, b!"[-2147483648,2147483647)", b!"[-2147483648,2147483647)")]

theorem int4range_ok : int4rangeFile.ok = true := by decide +kernel

/-- /repo/pgsql/int4rangearr_test.go: 12 cases with a valuer and a scanner, 2 texts. -/
def int4rangearrFile : File where
  name := "int4rangearr_test.go"
  col := arrayOf intRange
  cases := [
    ⟨12, stored (rangeArrValue (some [((-2147483648), 2147483647), (0, 21)])), fun r => gives (rangeArrScan (scanner "int4RangeArrayToIntArray2Slice") none r) (some [((-2147483648), 2147483647), (0, 21)])⟩,
    ⟨20, stored (rangeArrValue (some [((-128), 127), (0, 21)])), fun r => gives (rangeArrScan (scanner "int4RangeArrayToInt8Array2Slice") none r) (some [((-128), 127), (0, 21)])⟩,
    ⟨28, stored (rangeArrValue (some [((-32768), 32767), (0, 21)])), fun r => gives (rangeArrScan (scanner "int4RangeArrayToInt16Array2Slice") none r) (some [((-32768), 32767), (0, 21)])⟩,
    ⟨36, stored (rangeArrValue (some [((-2147483648), 2147483647), (0, 21)])), fun r => gives (rangeArrScan (scanner "int4RangeArrayToInt32Array2Slice") none r) (some [((-2147483648), 2147483647), (0, 21)])⟩,
    ⟨44, stored (rangeArrValue (some [((-2147483648), 2147483647), (0, 21)])), fun r => gives (rangeArrScan (scanner "int4RangeArrayToInt64Array2Slice") none r) (some [((-2147483648), 2147483647), (0, 21)])⟩,
    ⟨52, stored (rangeArrValue (some [(0, 2147483647), (0, 21)])), fun r => gives (rangeArrScan (scanner "int4RangeArrayToUintArray2Slice") none r) (some [(0, 2147483647), (0, 21)])⟩,
    ⟨60, stored (rangeArrValue (some [(0, 255), (0, 21)])), fun r => gives (rangeArrScan (scanner "int4RangeArrayToUint8Array2Slice") none r) (some [(0, 255), (0, 21)])⟩,
    ⟨68, stored (rangeArrValue (some [(0, 65535), (0, 21)])), fun r => gives (rangeArrScan (scanner "int4RangeArrayToUint16Array2Slice") none r) (some [(0, 65535), (0, 21)])⟩,
    ⟨76, stored (rangeArrValue (some [(0, 2147483647), (0, 21)])), fun r => gives (rangeArrScan (scanner "int4RangeArrayToUint32Array2Slice") none r) (some [(0, 2147483647), (0, 21)])⟩,
    ⟨84, stored (rangeArrValue (some [(0, 2147483647), (0, 21)])), fun r => gives (rangeArrScan (scanner "int4RangeArrayToUint64Array2Slice") none r) (some [(0, 2147483647), (0, 21)])⟩,
    ⟨92, stored (rangeArrValue (some [((-2147483648), 214748368), (0, 21)])), fun r => gives (rangeArrScan (scanner "int4RangeArrayToFloat32Array2Slice") none r) (some [((-2147483648), 214748368), (0, 21)])⟩,
    ⟨100, stored (rangeArrValue (some [((-2147483648), 2147483647), (0, 21)])), fun r => gives (rangeArrScan (scanner "int4RangeArrayToFloat64Array2Slice") none r) (some [((-2147483648), 2147483647), (0, 21)])⟩]
  texts := [
    (106, b!"{\"[-2147483648,2147483647)\",\"[0,21)\"}", b!"{\"[-2147483648,2147483647)\",\"[0,21)\"}"),
    (112, b!"{\"[-2147483648,2147483647)\",\"[0,21)\"}", b!"{\"[-2147483648,2147483647)\",\"[0,21)\"}")]

theorem int4rangearr_ok : int4rangearrFile.ok = true := by decide +kernel

/-- /repo/pgsql/int8arr_test.go: 12 cases with a valuer and a scanner, 2 texts. -/
def int8arrFile : File where
  name := "int8arr_test.go"
  col := arrayOf (intBits 64)
  cases := [
    ⟨12, stored (intArrValue (some [(-9223372036854775808), 9223372036854775807])), fun r => gives (intArrScan (scanner "int8ArrayToIntSlice") none r) (some [(-9223372036854775808), 9223372036854775807])⟩,
    ⟨20, stored (intArrValue (some [(-128), 127])), fun r => gives (intArrScan (scanner "int8ArrayToInt8Slice") none r) (some [(-128), 127])⟩,
    ⟨28, stored (intArrValue (some [(-32768), 32767])), fun r => gives (intArrScan (scanner "int8ArrayToInt16Slice") none r) (some [(-32768), 32767])⟩,
    ⟨36, stored (intArrValue (some [(-2147483648), 2147483647])), fun r => gives (intArrScan (scanner "int8ArrayToInt32Slice") none r) (some [(-2147483648), 2147483647])⟩,
    ⟨44, stored (intArrValue (some [(-9223372036854775808), 9223372036854775807])), fun r => gives (intArrScan (scanner "int8ArrayToInt64Slice") none r) (some [(-9223372036854775808), 9223372036854775807])⟩,
    ⟨52, stored (intArrValue (some [0, 2147483647])), fun r => gives (intArrScan (scanner "int8ArrayToUintSlice") none r) (some [0, 2147483647])⟩,
    ⟨60, stored (intArrValue (some [0, 255])), fun r => gives (intArrScan (scanner "int8ArrayToUint8Slice") none r) (some [0, 255])⟩,
    ⟨68, stored (intArrValue (some [0, 65535])), fun r => gives (intArrScan (scanner "int8ArrayToUint16Slice") none r) (some [0, 65535])⟩,
    ⟨76, stored (intArrValue (some [0, 4294967295])), fun r => gives (intArrScan (scanner "int8ArrayToUint32Slice") none r) (some [0, 4294967295])⟩,
    ⟨84, stored (intArrValue (some [0, 9223372036854775807])), fun r => gives (intArrScan (scanner "int8ArrayToUint64Slice") none r) (some [0, 9223372036854775807])⟩,
    ⟨92, stored (intArrValue (some [0, 2147483648])), fun r => gives (intArrScan (scanner "int8ArrayToFloat32Slice") none r) (some [0, 2147483648])⟩,
    ⟨100, stored (intArrValue (some [0, 922337203685477632])), fun r => gives (intArrScan (scanner "int8ArrayToFloat64Slice") none r) (some [0, 922337203685477632])⟩]
  texts := [
    (106, b!"{-9223372036854775808,9223372036854775807}", b!"{-9223372036854775808,9223372036854775807}"),
    (112, b!"{-9223372036854775808,9223372036854775807}", b!"{-9223372036854775808,9223372036854775807}")]

theorem int8arr_ok : int8arrFile.ok = true := by decide +kernel

/-- /repo/pgsql/int8range_test.go: 12 cases with a valuer and a scanner, 2 texts. -/
def int8rangeFile : File where
  name := "int8range_test.go"
  col := intRange
  cases := [
    ⟨12, .text (rangeValue ((-9223372036854775808), 9223372036854775807)), fun r => gives (rangeScan (scanner "int8RangeToIntArray2") (0, 0) r) ((-9223372036854775808), 9223372036854775807)⟩,
    ⟨20, .text (rangeValue ((-128), 127)), fun r => gives (rangeScan (scanner "int8RangeToInt8Array2") (0, 0) r) ((-128), 127)⟩,
    ⟨26, .text (rangeValue ((-32768), 32767)), fun r => gives (rangeScan (scanner "int8RangeToInt16Array2") (0, 0) r) ((-32768), 32767)⟩,
    ⟨34, .text (rangeValue ((-2147483648), 2147483647)), fun r => gives (rangeScan (scanner "int8RangeToInt32Array2") (0, 0) r) ((-2147483648), 2147483647)⟩,
    ⟨42, .text (rangeValue ((-9223372036854775808), 9223372036854775807)), fun r => gives (rangeScan (scanner "int8RangeToInt64Array2") (0, 0) r) ((-9223372036854775808), 9223372036854775807)⟩,
    ⟨50, .text (rangeValue (0, 9223372036854775807)), fun r => gives (rangeScan (scanner "int8RangeToUintArray2") (0, 0) r) (0, 9223372036854775807)⟩,
    ⟨58, .text (rangeValue (0, 255)), fun r => gives (rangeScan (scanner "int8RangeToUint8Array2") (0, 0) r) (0, 255)⟩,
    ⟨66, .text (rangeValue (0, 65535)), fun r => gives (rangeScan (scanner "int8RangeToUint16Array2") (0, 0) r) (0, 65535)⟩,
    ⟨74, .text (rangeValue (0, 4294967295)), fun r => gives (rangeScan (scanner "int8RangeToUint32Array2") (0, 0) r) (0, 4294967295)⟩,
    ⟨82, .text (rangeValue (0, 9223372036854775807)), fun r => gives (rangeScan (scanner "int8RangeToUint64Array2") (0, 0) r) (0, 9223372036854775807)⟩,
    ⟨90, .text (rangeValue ((-9223372036854775808), 922337217429372928)), fun r => gives (rangeScan (scanner "int8RangeToFloat32Array2") (0, 0) r) ((-9223372036854775808), 922337217429372928)⟩,
    ⟨98, .text (rangeValue ((-9223372036854775808), 922337203685477632)), fun r => gives (rangeScan (scanner "int8RangeToFloat64Array2") (0, 0) r) ((-9223372036854775808), 922337203685477632)⟩]
  texts := [
    (104, b!"[-9223372036854775808,9223372036854775807)", b!"[-9223372036854775808,9223372036854775807)"),
    (110, b!"[-9223372036854775808,9223372036854775807)", b!"[-9223372036854775808,9223372036854775807)")]

theorem int8range_ok : int8rangeFile.ok = true := by decide +kernel

/-- /repo/pgsql/int8rangearr_test.go: 12 cases with a valuer and a scanner, 2 texts. -/
def int8rangearrFile : File where
  name := "int8rangearr_test.go"
  col := arrayOf intRange
  cases := [
    ⟨12, stored (rangeArrValue (some [((-9223372036854775808), 9223372036854775807), (0, 21)])), fun r => gives (rangeArrScan (scanner "int8RangeArrayToIntArray2Slice") none r) (some [((-9223372036854775808), 9223372036854775807), (0, 21)])⟩,
    ⟨20, stored (rangeArrValue (some [((-128), 127), (0, 21)])), fun r => gives (rangeArrScan (scanner "int8RangeArrayToInt8Array2Slice") none r) (some [((-128), 127), (0, 21)])⟩,
    ⟨28, stored (rangeArrValue (some [((-32768), 32767), (0, 21)])), fun r => gives (rangeArrScan (scanner "int8RangeArrayToInt16Array2Slice") none r) (some [((-32768), 32767), (0, 21)])⟩,
    ⟨36, stored (rangeArrValue (some [((-2147483648), 2147483647), (0, 21)])), fun r => gives (rangeArrScan (scanner "int8RangeArrayToInt32Array2Slice") none r) (some [((-2147483648), 2147483647), (0, 21)])⟩,
    ⟨44, stored (rangeArrValue (some [((-9223372036854775808), 9223372036854775807), (0, 21)])), fun r => gives (rangeArrScan (scanner "int8RangeArrayToInt64Array2Slice") none r) (some [((-9223372036854775808), 9223372036854775807), (0, 21)])⟩,
    ⟨52, stored (rangeArrValue (some [(0, 9223372036854775807), (0, 21)])), fun r => gives (rangeArrScan (scanner "int8RangeArrayToUintArray2Slice") none r) (some [(0, 9223372036854775807), (0, 21)])⟩,
    ⟨60, stored (rangeArrValue (some [(0, 255), (0, 21)])), fun r => gives (rangeArrScan (scanner "int8RangeArrayToUint8Array2Slice") none r) (some [(0, 255), (0, 21)])⟩,
    ⟨68, stored (rangeArrValue (some [(0, 65535), (0, 21)])), fun r => gives (rangeArrScan (scanner "int8RangeArrayToUint16Array2Slice") none r) (some [(0, 65535), (0, 21)])⟩,
    ⟨76, stored (rangeArrValue (some [(0, 4294967295), (0, 21)])), fun r => gives (rangeArrScan (scanner "int8RangeArrayToUint32Array2Slice") none r) (some [(0, 4294967295), (0, 21)])⟩,
    ⟨84, stored (rangeArrValue (some [(0, 9223372036854775807), (0, 21)])), fun r => gives (rangeArrScan (scanner "int8RangeArrayToUint64Array2Slice") none r) (some [(0, 9223372036854775807), (0, 21)])⟩,
    ⟨92, stored (rangeArrValue (some [((-2147483648), 214748368), (0, 21)])), fun r => gives (rangeArrScan (scanner "int8RangeArrayToFloat32Array2Slice") none r) (some [((-2147483648), 214748368), (0, 21)])⟩,
    ⟨100, stored (rangeArrValue (some [((-9223372036854775808), 922337203685477632), (0, 21)])), fun r => gives (rangeArrScan (scanner "int8RangeArrayToFloat64Array2Slice") none r) (some [((-9223372036854775808), 922337203685477632), (0, 21)])⟩]
  texts := [
    (106, b!"{\"[-9223372036854775808,9223372036854775807)\",\"[0,21)\"}", b!"{\"[-9223372036854775808,9223372036854775807)\",\"[0,21)\"}"),
    (112, b!"{\"[-9223372036854775808,9223372036854775807)\",\"[0,21)\"}", b!"{\"[-9223372036854775808,9223372036854775807)\",\"[0,21)\"}")]

theorem int8rangearr_ok : int8rangearrFile.ok = true := by decide +kernel

/-- /repo/pgsql/json_test.go: 0 cases with a valuer and a scanner, 6 texts. -/
def jsonFile : File where
  name := "json_test.go"
  col := keep
  cases := []
  texts := [
    (28, b!"{}", b!"{}"),
    (31, b!"{\"foo\":[\"bar\", \"baz\", 123]}", b!"{\"foo\":[\"bar\", \"baz\", 123]}"),
    (34, b!"{\"foo\":[123, \"baz\", \"bar\"]}", b!"{\"foo\":[123, \"baz\", \"bar\"]}"),
    (40, b!"{}", b!"{}"),
    (43, b!"{\"foo\":[\"bar\", \"baz\", 123]}", b!"{\"foo\":[\"bar\", \"baz\", 123]}"),
    (46, b!"{\"foo\":[123, \"baz\", \"bar\"]}", b!"{\"foo\":[123, \"baz\", \"bar\"]}")]

theorem json_ok : jsonFile.ok = true := by decide +kernel

/-- /repo/pgsql/json_test.go: 0 cases with a valuer and a scanner, 6 texts. -/
def jsonbFile : File where
  name := "json_test.go"
  col := jsonb
  cases := []
  texts := [
    (74, b!"{}", b!"{}"),
    (77, b!"{\"foo\": [\"bar\", \"baz\", 123]}", b!"{\"foo\": [\"bar\", \"baz\", 123]}"),
    (80, b!"{\"foo\": [123, \"baz\", \"bar\"]}", b!"{\"foo\": [123, \"baz\", \"bar\"]}"),
    (86, b!"{}", b!"{}"),
    (89, b!"{\"foo\": [\"bar\", \"baz\", 123]}", b!"{\"foo\": [\"bar\", \"baz\", 123]}"),
    (92, b!"{\"foo\": [123, \"baz\", \"bar\"]}", b!"{\"foo\": [123, \"baz\", \"bar\"]}")]

theorem jsonb_ok : jsonbFile.ok = true := by decide +kernel

/-- /repo/pgsql/jsonarr_test.go: 4 cases with a valuer and a scanner, 2 texts. -/
def jsonarrFile : File where
  name := "jsonarr_test.go"
  col := arrayOf keep
  cases := [
    ⟨14, stored (jsonFromBytes none), fun r => gives (jsonToBytes none r) none⟩,
    ⟨15, stored (jsonFromBytes (some [])), fun r => gives (jsonToBytes none r) (some [])⟩,
    ⟨16, stored (jsonFromBytes (some [(some b!"{\"foo\":[\"bar\", \"baz\", 123]}"), (some b!"[\"foo\", 123]")])), fun r => gives (jsonToBytes none r) (some [(some b!"{\"foo\":[\"bar\", \"baz\", 123]}"), (some b!"[\"foo\", 123]")])⟩,
    ⟨23, stored (jsonFromBytes (some [(some b!"{\"foo\":[\"bar\", \"baz\", 123]}"), none])), fun r => gives (jsonToBytes none r) (some [(some b!"{\"foo\":[\"bar\", \"baz\", 123]}"), none])⟩]
  texts := [
    (29, b!"{\"{\\\"foo\\\":[\\\"bar\\\", \\\"baz\\\", 123]}\",\"[\\\"foo\\\", 123]\"}", b!"{\"{\\\"foo\\\":[\\\"bar\\\", \\\"baz\\\", 123]}\",\"[\\\"foo\\\", 123]\"}"),
    (35, b!"{\"{\\\"foo\\\":[\\\"bar\\\", \\\"baz\\\", 123]}\",\"[\\\"foo\\\", 123]\"}", b!"{\"{\\\"foo\\\":[\\\"bar\\\", \\\"baz\\\", 123]}\",\"[\\\"foo\\\", 123]\"}")]

theorem jsonarr_ok : jsonarrFile.ok = true := by decide +kernel

/-- /repo/pgsql/jsonarr_test.go: 4 cases with a valuer and a scanner, 2 texts. -/
def jsonbarrFile : File where
  name := "jsonarr_test.go"
  col := arrayOf jsonb
  cases := [
    ⟨49, stored (jsonFromBytes none), fun r => gives (jsonToBytes none r) none⟩,
    ⟨50, stored (jsonFromBytes (some [])), fun r => gives (jsonToBytes none r) (some [])⟩,
    ⟨51, stored (jsonFromBytes (some [(some b!"{\"foo\": [\"bar\", \"baz\", 123]}"), (some b!"[\"foo\", 123]")])), fun r => gives (jsonToBytes none r) (some [(some b!"{\"foo\": [\"bar\", \"baz\", 123]}"), (some b!"[\"foo\", 123]")])⟩,
    ⟨58, stored (jsonFromBytes (some [(some b!"{\"foo\": [\"bar\", \"baz\", 123]}"), none])), fun r => gives (jsonToBytes none r) (some [(some b!"{\"foo\": [\"bar\", \"baz\", 123]}"), none])⟩]
  texts := [
    (64, b!"{\"{\\\"foo\\\":[\\\"bar\\\",\\\"baz\\\",123]}\",\"[\\\"foo\\\",123]\"}", b!"{\"{\\\"foo\\\": [\\\"bar\\\", \\\"baz\\\", 123]}\",\"[\\\"foo\\\", 123]\"}"),
    (70, b!"{\"{\\\"foo\\\":[\\\"bar\\\",\\\"baz\\\",123]}\",\"[\\\"foo\\\",123]\"}", b!"{\"{\\\"foo\\\": [\\\"bar\\\", \\\"baz\\\", 123]}\",\"[\\\"foo\\\", 123]\"}")]

theorem jsonbarr_ok : jsonbarrFile.ok = true := by decide +kernel

/-- /repo/pgsql/line_test.go: 3 cases with a valuer and a scanner, 6 texts. -/
def lineFile : File where
  name := "line_test.go"
  col := shape
  cases := [
    ⟨12, .text (lineValue coords ((.fin false (1 * 2 ^ 1074)), (.fin false (1 * 2 ^ 1074)), (.fin false (1 * 2 ^ 1074)))), fun r => gives (lineScan coords (.fin false 0, .fin false 0, .fin false 0) r) ((.fin false (1 * 2 ^ 1074)), (.fin false (1 * 2 ^ 1074)), (.fin false (1 * 2 ^ 1074)))⟩,
    ⟨13, .text (lineValue coords ((.fin false 0), (.fin false (5 * 2 ^ 1074)), (.fin false (5 * 2 ^ 1075)))), fun r => gives (lineScan coords (.fin false 0, .fin false 0, .fin false 0) r) ((.fin false 0), (.fin false (5 * 2 ^ 1074)), (.fin false (5 * 2 ^ 1075)))⟩,
    ⟨14, .text (lineValue coords ((.fin false (1 * 2 ^ 1073)), (.fin false (11 * 2 ^ 1073)), (.fin false (21 * 2 ^ 1073)))), fun r => gives (lineScan coords (.fin false 0, .fin false 0, .fin false 0) r) ((.fin false (1 * 2 ^ 1073)), (.fin false (11 * 2 ^ 1073)), (.fin false (21 * 2 ^ 1073)))⟩]
  texts := [
    (20, b!"{1,1,1}", b!"{1,1,1}"),
    (21, b!"{0,5,10}", b!"{0,5,10}"),
    (22, b!"{0.5,5.5,10.5}", b!"{0.5,5.5,10.5}"),
    (28, b!"{1,1,1}", b!"{1,1,1}"),
    (29, b!"{0,5,10}", b!"{0,5,10}"),
    (30, b!"{0.5,5.5,10.5}", b!"{0.5,5.5,10.5}")]

theorem line_ok : lineFile.ok = true := by decide +kernel

/-- /repo/pgsql/linearr_test.go: 4 cases with a valuer and a scanner, 8 texts. -/
def linearrFile : File where
  name := "linearr_test.go"
  col := arrayOf shape
  cases := [
    ⟨12, stored (lineArrValue coords none), fun r => gives (lineArrScan coords none r) none⟩,
    ⟨13, stored (lineArrValue coords (some [])), fun r => gives (lineArrScan coords none r) (some [])⟩,
    ⟨14, stored (lineArrValue coords (some [((.fin false (1 * 2 ^ 1074)), (.fin false (1 * 2 ^ 1075)), (.fin false (3 * 2 ^ 1074)))])), fun r => gives (lineArrScan coords none r) (some [((.fin false (1 * 2 ^ 1074)), (.fin false (1 * 2 ^ 1075)), (.fin false (3 * 2 ^ 1074)))])⟩,
    ⟨15, stored (lineArrValue coords (some [((.fin false (1 * 2 ^ 1074)), (.fin false (1 * 2 ^ 1075)), (.fin false (3 * 2 ^ 1074))), ((.fin false (1 * 2 ^ 1076)), (.fin false (5 * 2 ^ 1074)), (.fin false (3 * 2 ^ 1075)))])), fun r => gives (lineArrScan coords none r) (some [((.fin false (1 * 2 ^ 1074)), (.fin false (1 * 2 ^ 1075)), (.fin false (3 * 2 ^ 1074))), ((.fin false (1 * 2 ^ 1076)), (.fin false (5 * 2 ^ 1074)), (.fin false (3 * 2 ^ 1075)))])⟩]
  texts := [
    (21, b!"{}", b!"{}"),
    (22, b!"{\"{1,2,3}\"}", b!"{\"{1,2,3}\"}"),
    (23, b!"{\"{1,2,3}\",\"{4,5,6}\"}", b!"{\"{1,2,3}\",\"{4,5,6}\"}"),
    (26, b!"{NULL,\"{4,5,6}\",NULL}", b!"{NULL,\"{4,5,6}\",NULL}"),
    (32, b!"{}", b!"{}"),
    (33, b!"{\"{1,2,3}\"}", b!"{\"{1,2,3}\"}"),
    (34, b!"{\"{1,2,3}\",\"{4,5,6}\"}", b!"{\"{1,2,3}\",\"{4,5,6}\"}"),
    (37, b!"{NULL,\"{4,5,6}\",NULL}", b!"{NULL,\"{4,5,6}\",NULL}")]

theorem linearr_ok : linearrFile.ok = true := by decide +kernel

/-- /repo/pgsql/lseg_test.go: 2 cases with a valuer and a scanner, 4 texts. -/
def lsegFile : File where
  name := "lseg_test.go"
  col := shape
  cases := [
    ⟨12, .text (lsegValue coords (((.fin false 0), (.fin false 0)), ((.fin false (1 * 2 ^ 1074)), (.fin false (1 * 2 ^ 1074))))), fun r => gives (lsegScan coords ((.fin false 0, .fin false 0), (.fin false 0, .fin false 0)) r) (((.fin false 0), (.fin false 0)), ((.fin false (1 * 2 ^ 1074)), (.fin false (1 * 2 ^ 1074))))⟩,
    ⟨15, .text (lsegValue coords (((.fin false (1 * 2 ^ 1073)), (.fin false (1 * 2 ^ 1073))), ((.fin false (3 * 2 ^ 1073)), (.fin false (3 * 2 ^ 1073))))), fun r => gives (lsegScan coords ((.fin false 0, .fin false 0), (.fin false 0, .fin false 0)) r) (((.fin false (1 * 2 ^ 1073)), (.fin false (1 * 2 ^ 1073))), ((.fin false (3 * 2 ^ 1073)), (.fin false (3 * 2 ^ 1073))))⟩]
  texts := [
    (21, b!"[(0,0),(1,1)]", b!"[(0,0),(1,1)]"),
    (24, b!"[(0.5,0.5),(1.5,1.5)]", b!"[(0.5,0.5),(1.5,1.5)]"),
    (30, b!"[(0,0),(1,1)]", b!"[(0,0),(1,1)]"),
    (33, b!"[(0.5,0.5),(1.5,1.5)]", b!"[(0.5,0.5),(1.5,1.5)]")]

theorem lseg_ok : lsegFile.ok = true := by decide +kernel

/-- /repo/pgsql/lsegarr_test.go: 4 cases with a valuer and a scanner, 6 texts. -/
def lsegarrFile : File where
  name := "lsegarr_test.go"
  col := arrayOf shape
  cases := [
    ⟨12, stored (lsegArrValue coords none), fun r => gives (lsegArrScan coords none r) none⟩,
    ⟨13, stored (lsegArrValue coords (some [])), fun r => gives (lsegArrScan coords none r) (some [])⟩,
    ⟨14, stored (lsegArrValue coords (some [(((.fin false 0), (.fin false 0)), ((.fin false (1 * 2 ^ 1074)), (.fin false (1 * 2 ^ 1074))))])), fun r => gives (lsegArrScan coords none r) (some [(((.fin false 0), (.fin false 0)), ((.fin false (1 * 2 ^ 1074)), (.fin false (1 * 2 ^ 1074))))])⟩,
    ⟨17, stored (lsegArrValue coords (some [(((.fin false (1 * 2 ^ 1074)), (.fin false (1 * 2 ^ 1075))), ((.fin false (3 * 2 ^ 1074)), (.fin false (1 * 2 ^ 1076)))), (((.fin false (3 * 2 ^ 1073)), (.fin false (5 * 2 ^ 1073))), ((.fin false (7 * 2 ^ 1073)), (.fin false (9 * 2 ^ 1073))))])), fun r => gives (lsegArrScan coords none r) (some [(((.fin false (1 * 2 ^ 1074)), (.fin false (1 * 2 ^ 1075))), ((.fin false (3 * 2 ^ 1074)), (.fin false (1 * 2 ^ 1076)))), (((.fin false (3 * 2 ^ 1073)), (.fin false (5 * 2 ^ 1073))), ((.fin false (7 * 2 ^ 1073)), (.fin false (9 * 2 ^ 1073))))])⟩]
  texts := [
    (23, b!"{}", b!"{}"),
    (24, b!"{\"[(0,0),(1,1)]\"}", b!"{\"[(0,0),(1,1)]\"}"),
    (27, b!"{\"[(1,2),(3,4)]\",\"[(1.5,2.5),(3.5,4.5)]\"}", b!"{\"[(1,2),(3,4)]\",\"[(1.5,2.5),(3.5,4.5)]\"}"),
    (33, b!"{}", b!"{}"),
    (34, b!"{\"[(0,0),(1,1)]\"}", b!"{\"[(0,0),(1,1)]\"}"),
    (37, b!"{\"[(1,2),(3,4)]\",\"[(1.5,2.5),(3.5,4.5)]\"}", b!"{\"[(1,2),(3,4)]\",\"[(1.5,2.5),(3.5,4.5)]\"}")]

theorem lsegarr_ok : lsegarrFile.ok = true := by decide +kernel

/-- /repo/pgsql/macaddr8_test.go: 2 cases with a valuer and a scanner, 4 texts. -/
def macaddr8File : File where
  name := "macaddr8_test.go"
  col := mac 8
  cases := [
    ⟨12, stored (macValue (some [8, 0, 43, 1, 2, 3, 4, 5])), fun r => gives (macScan none r) (some [8, 0, 43, 1, 2, 3, 4, 5])⟩,
    ⟨15, stored (macValue (some [2, 0, 94, 16, 0, 0, 0, 1])), fun r => gives (macScan none r) (some [2, 0, 94, 16, 0, 0, 0, 1])⟩]
  texts := [
    (21, b!"08:00:2b:01:02:03:04:05", b!"08:00:2b:01:02:03:04:05"),
    (22, b!"02:00:5e:10:00:00:00:01", b!"02:00:5e:10:00:00:00:01"),
    (26, b!"08:00:2b:01:02:03:04:05", b!"08:00:2b:01:02:03:04:05"),
    (27, b!"02:00:5e:10:00:00:00:01", b!"02:00:5e:10:00:00:00:01")]

theorem macaddr8_ok : macaddr8File.ok = true := by decide +kernel

end Verif.Conform.Codec
