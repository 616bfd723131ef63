import Verif.Conform.PgCases1
import Verif.Conform.PgCases2
import Verif.Conform.PgCases3
import Verif.Conform.PgCases4

/-
C97: the codecs of package pgsql do with the tests of the project what the tests expect.
-/
namespace Verif.Conform.Codec
open Verif Verif.Pgsql Verif.PgServer

/-- The tests of package pgsql that are transcribed. -/
def files : List File := [
  bitFile, bitarrFile, boolarrFile, boxFile, boxarrFile, bpcharFile, bpchararrFile, byteaarrFile, charFile,
  chararrFile, cidrFile, cidrarrFile, dateFile, datearrFile, daterangeFile, daterangearrFile,
  float4arrFile, float8arrFile, hstoreFile, hstorearrFile, inetFile, inetarrFile, int2arrFile,
  int2vectorFile, int2vectorarrFile, int4arrFile, int4rangeFile, int4rangearrFile, int8arrFile,
  int8rangeFile, int8rangearrFile, jsonFile, jsonbFile, jsonarrFile, jsonbarrFile, lineFile, linearrFile,
  lsegFile, lsegarrFile, macaddr8File, macaddr8arrFile, macaddrFile, macaddrarrFile, moneyFile,
  moneyarrFile, numericFile, numericarrFile, numrangeFile, numrangearrFile, pathFile, patharrFile,
  pointFile, pointarrFile, polygonFile, polygonarrFile, textFile, textarrFile, timeFile, timearrFile,
  timestamparrFile, timetzFile, timetzarrFile, tsqueryFile, tsqueryarrFile, tsrangeFile, tsrangearrFile,
  tsvectorFile, tsvectorarrFile, uuidFile, uuidarrFile, varbitFile, varbitarrFile, varcharFile,
  varchararrFile, xmlFile, xmlarrFile]

theorem files_ok : ∀ f ∈ files, f.ok = true := by
  have h : ∀ f, f ∈ files → f.ok = true := by
    unfold files
    simp only [List.forall_mem_cons, List.not_mem_nil, false_implies, implies_true, and_true]
    exact ⟨bit_ok, bitarr_ok, boolarr_ok, box_ok, boxarr_ok, bpchar_ok, bpchararr_ok, byteaarr_ok, char_ok,
    chararr_ok, cidr_ok, cidrarr_ok, date_ok, datearr_ok, daterange_ok, daterangearr_ok, float4arr_ok,
    float8arr_ok, hstore_ok, hstorearr_ok, inet_ok, inetarr_ok, int2arr_ok, int2vector_ok,
    int2vectorarr_ok, int4arr_ok, int4range_ok, int4rangearr_ok, int8arr_ok, int8range_ok, int8rangearr_ok,
    json_ok, jsonb_ok, jsonarr_ok, jsonbarr_ok, line_ok, linearr_ok, lseg_ok, lsegarr_ok, macaddr8_ok,
    macaddr8arr_ok, macaddr_ok, macaddrarr_ok, money_ok, moneyarr_ok, numeric_ok, numericarr_ok,
    numrange_ok, numrangearr_ok, path_ok, patharr_ok, point_ok, pointarr_ok, polygon_ok, polygonarr_ok,
    text_ok, textarr_ok, time_ok, timearr_ok, timestamparr_ok, timetz_ok, timetzarr_ok, tsquery_ok,
    tsqueryarr_ok, tsrange_ok, tsrangearr_ok, tsvector_ok, tsvectorarr_ok, uuid_ok, uuidarr_ok, varbit_ok,
    varbitarr_ok, varchar_ok, varchararr_ok, xml_ok, xmlarr_ok⟩
  exact h

/-- **C97** In every case of the tests with a valuer and a scanner the server accepts what the valuer gives for the
input, and the scanner makes the expected output of what the server sends back; a value that is stored as NULL is
scanned as the expected output. -/
theorem C97_values : ∀ f ∈ files, ∀ c ∈ f.cases, Passes f.col c := by
  intro f hf c hc
  have h := files_ok f hf
  unfold File.ok at h
  rw [Bool.and_eq_true] at h
  exact (passes_iff f.col c).1 (List.all_eq_true.1 h.1 c hc)

/-- **C97** What is assumed of the server agrees with the cases in which a text goes in and a text comes out. -/
theorem C97_texts : ∀ f ∈ files, ∀ t ∈ f.texts, f.col t.2.1 = some t.2.2 := by
  intro f hf t ht
  have h := files_ok f hf
  unfold File.ok at h
  rw [Bool.and_eq_true] at h
  exact of_decide_eq_true (List.all_eq_true.1 h.2 t ht)

/-- **C97** How many cases there are. -/
theorem C97_cases : files.length = 76 ∧ (files.map (·.cases.length)).sum = 606 ∧
    (files.map (·.texts.length)).sum = 431 := by decide +kernel

/-- A case fails if the scanner gives something else, if the server refuses the text, or if the valuer panics. -/
theorem C97_fails : ¬ Passes (arrayOf (intBits 16)) ⟨0, stored (intArrValue (some [1, 2])),
      fun r => gives (intArrScan (scanner "int2ArrayToIntSlice") none r) (some [2, 1])⟩ ∧
    ¬ Passes (arrayOf (intBits 16)) ⟨0, stored (intArrValue (some [32768])),
      fun r => gives (intArrScan (scanner "int4ArrayToIntSlice") none r) (some [32768])⟩ ∧
    ¬ Passes keep ⟨0, .panic, fun _ => true⟩ := by
  refine ⟨?_, ?_, ?_⟩ <;> rw [← passes_iff] <;> decide +kernel

example : box b!"(4.5203,0.79322),(3.2,5.63333)" = some b!"(4.5203,5.63333),(3.2,0.79322)" ∧
    daterange b!"(1999-12-31,2001-05-05]" = some b!"[2000-01-01,2001-05-06)" ∧
    intBits 16 b!"32768" = none ∧ inet b!"192.168.0.1/32" = some b!"192.168.0.1" ∧
    hstore b!"\"bb\"=>NULL,\"a\"=>\"1\"" = some b!"\"a\"=>\"1\", \"bb\"=>NULL" := by
  decide +kernel

end Verif.Conform.Codec
