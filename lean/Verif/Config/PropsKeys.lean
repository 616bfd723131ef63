import Verif.Config.Props
import Verif.Command.PropsNames

/- C50: what the options are called, and which values are accepted. -/
namespace Verif.Config
open Verif.Analysis

/-- The keys of the options in the file, as documented. -/
def docKey : Key → Bytes
  | .str .workingDirectory => b!"working_directory"
  | .str .outputFileNameFormat => b!"output_file_name_format"
  | .str .databaseDSN => b!"database_dsn"
  | .str .filterColumnKeyTag => b!"filter_column_key_tag"
  | .str .filterColumnKeySeparator => b!"filter_column_key_separator"
  | .str .methodName => b!"method_name"
  | .bool .recursive => b!"recursive"
  | .bool .quoteIdentifiers => b!"quote_identifiers"
  | .bool .filterColumnKeyBase => b!"filter_column_key_base"
  | .bool .methodWithContext => b!"method_with_context"
  | .slice .inputFiles => b!"input_files"
  | .slice .inputFileRegexps => b!"input_file_regexps"
  | .argType => b!"method_argument_type"
  | .converters => b!"filter_value_converters"

/-- The flags of the options, as documented. -/
def docFlag : Key → Option Bytes
  | .str .workingDirectory => some b!"wd"
  | .str .outputFileNameFormat => some b!"o"
  | .str .databaseDSN => some b!"db"
  | .str .filterColumnKeyTag => some b!"fcktag"
  | .str .filterColumnKeySeparator => some b!"fcksep"
  | .str .methodName => none
  | .bool .recursive => some b!"r"
  | .bool .quoteIdentifiers => some b!"qid"
  | .bool .filterColumnKeyBase => some b!"fckbase"
  | .bool .methodWithContext => some b!"with-ctx"
  | .slice .inputFiles => some b!"f"
  | .slice .inputFileRegexps => some b!"rx"
  | .argType => some b!"argtype"
  | .converters => none

/-- **C50** A key of the file stands for the option of that name, in upper or lower case. -/
theorem C50_keys (n : Bytes) (k : Key) : jsonKey n = some k ↔ n.map lowerC = docKey k := by
  show List.lookup (n.map lowerC) jsonKeys = some k ↔ _
  generalize n.map lowerC = m
  constructor
  · intro h
    simp only [jsonKeys, List.lookup] at h
    repeat' split at h
    all_goals first | cases h | skip
    all_goals
      rename_i hm
      exact eq_of_beq hm
  · rintro rfl
    rcases k with k | k | k | _ | _ <;> first | rfl | (cases k <;> rfl)

/-- **C50** A flag stands for the option of that name, and no flag but `config` is left. -/
theorem C50_flags (n : Bytes) (k : Key) : flagKey n = some k ↔ docFlag k = some n := by
  constructor
  · intro h
    unfold flagKey at h
    split at h <;> first | (cases h; done) | (cases h; rfl)
  · rcases k with k | k | k | _ | _ <;> (try cases k) <;> intro h <;> cases h <;> rfl

/-- A text that can be the key of a struct tag, or nothing. -/
def TagKey (s : Bytes) : Prop :=
  s = [] ∨ ∃ c cs, s = c :: cs ∧ Rx.idStart c = true ∧ ∀ d ∈ cs, Rx.wordChar d = true

theorem rxKeyTag_iff (s : Bytes) : rxKeyTag.matches s = true ↔ TagKey s := by
  rw [Rx.matches_iff]
  unfold rxKeyTag TagKey Rx.opt
  constructor
  · intro h
    cases h with
    | altL h => exact .inr ((Rx.lang_ident s).1 h)
    | altR h => cases h; exact .inl rfl
  · rintro (rfl | h)
    · exact .altR .eps
    · exact .altL ((Rx.lang_ident s).2 h)

/-- **C50** A configuration is accepted exactly if it names a database, its format has one verb or none, the
key tag is an identifier or empty, the separator has one byte at most, and the type of the argument is
accepted; of the options only the format is changed, and only by putting the verb before it. -/
theorem C50_valid (ld : Load) (c c' : Config) : validate ld c = .ok c' ↔
    (c.str .databaseDSN).value ≠ [] ∧ TagKey (c.str .filterColumnKeyTag).value ∧
    (c.str .filterColumnKeySeparator).value.length ≤ 1 ∧
    ∃ g t, validArgType ld c.argType = .ok t ∧
      c' = { c with
        str := upd c.str .outputFileNameFormat { c.str .outputFileNameFormat with value := g }, argType := t } ∧
      (('%' ∉ (c.str .outputFileNameFormat).value ∧ g = '%' :: 's' :: (c.str .outputFileNameFormat).value) ∨
        (g = (c.str .outputFileNameFormat).value ∧
          ∃ pre post, Command.Format (c.str .outputFileNameFormat).value pre post)) := by
  rw [validate]
  by_cases hd : (c.str .databaseDSN).value = []
  · simp [hd]
  · have hl : ¬(c.str .databaseDSN).value.length = 0 := fun e => hd (List.length_eq_zero_iff.1 e)
    rw [if_neg hl, Res.bind_eq_ok]
    constructor
    · rintro ⟨g, hg, h⟩
      split at h
      · cases h
      · rename_i ht
        split at h
        · cases h
        · rename_i hs
          rw [Res.map_eq_ok] at h
          obtain ⟨t, ha, h⟩ := h
          refine ⟨hd, (rxKeyTag_iff _).1 (by simpa using ht), by omega, g, t, ha, h.symm, ?_⟩
          exact (Command.C52_accepted _ _).1 hg
    · rintro ⟨_, ht, hs, g, t, ha, rfl, hg⟩
      refine ⟨g, (Command.C52_accepted _ _).2 hg, ?_⟩
      rw [if_neg (by simp [(rxKeyTag_iff _).2 ht]), if_neg (by omega), ha]
      rfl

example : (load [(b!"db", b!"x"), (b!"o", b!"_gen")] (some (.obj [(b!"Filter_Column_KEY_tag", .str b!"db")]))).bind
    (fun c => (validate (fun _ => none) c).map fun c =>
      ((c.str .outputFileNameFormat).value, (c.str .filterColumnKeyTag).value)) =
    .ok (b!"%s_gen", b!"db") := by decide +kernel

end Verif.Config
