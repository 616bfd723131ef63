import Verif.Generator.PropsParams
import Verif.Generator.Witness

/- C39: examples and exceptions. -/
namespace Verif.Generator
open Verif.Analysis Verif.Postgres

/-- The parameters of the statement, the arguments, the slices and the number of parameters counted. -/
def outcome (c : Code) : List Slot × List GoExpr × List GoExpr × Int := (c.slots, c.args, c.g.slices, c.g.num)

def filterTy : Ty :=
  .named { name := b!"Filter", pkg := some { path := gosqlPath, name := b!"gosql" } } (.struct .nil)

/-- The hypotheses of C39 hold for `type UpdateUser struct { Users *User "rel:users:u" }`, and the
parameters are `SET id = $1, name = $2 WHERE id = $1`. -/
theorem C39_example : ∃ q t c, Plain shopCat q t ∧ keepsAll q ∧ generate q t = some c ∧
    outcome c = ([.num 1, .num 2, .num 1], [path [b!"Users", b!"Id"], path [b!"Users", b!"Name"]], [], 2) := by
  obtain ⟨q, t, c, hb, hc, hp⟩ := code_of (env := env0) (cat := shopCat) (n := b!"UpdateUser")
    (fs := [relFld (.ptr userTy)])
    (P := fun q t c => decide (isInsertOrUpdateSlice q = false ∧ inUsesFields q = true ∧
      (∀ w ∈ t.writes, ∀ p ∈ t.pkeys, w.idx = p.idx → canUseDefault q w.field = false) ∧
      q.kind = .update ∧ outcome c =
        ([.num 1, .num 2, .num 1], [path [b!"Users", b!"Id"], path [b!"Users", b!"Name"]], [], 2)))
    (by decide +kernel)
  obtain ⟨h1, h2, h3, h4, h5⟩ := of_decide_eq_true hp
  exact ⟨q, t, c, { toBuilt := hb, one := h1, fields := h2, keys := fun _ => h3 },
    ⟨fun h => by simp [h4] at h, fun h => by simp [isSelectCountOrExists, h4, QKind.isSelect] at h⟩, hc, h5⟩

/-- The same with a where struct, an IN list, a limit and an offset. -/
theorem C39_example_select : ∃ q t c, Plain shopCat q t ∧ keepsAll q ∧ generate q t = some c ∧
    outcome c = ([.num 1, .slice 1, .num 2, .num 3, .num 4],
      [path [b!"Where", b!"Name"], path [b!"Where", b!"Age"], path [b!"Limit"], path [b!"Offset"]],
      [path [b!"Where", b!"Ids"]], 4) := by
  obtain ⟨q, t, c, hb, hc, hp⟩ := code_of (env := env0) (cat := shopCat) (n := b!"SelectUsers")
    (fs := [relFld (.slice userTy),
      whereOf [sqlFld b!"Name" [b!"u.name", b!"@lower"] strTy,
        sqlFld b!"Ids" [b!"u.id isin"] (.slice Analysis.intTy), sqlFld b!"Age" [b!"u.age >"] Analysis.intTy],
      sqlFld b!"Limit" [b!"20"] Analysis.intTy, ({ name := b!"Offset" }, Analysis.intTy)])
    (P := fun q _ c => decide (isInsertOrUpdateSlice q = false ∧ inUsesFields q = true ∧
      q.kind = .select ∧ outcome c = ([.num 1, .slice 1, .num 2, .num 3, .num 4],
        [path [b!"Where", b!"Name"], path [b!"Where", b!"Age"], path [b!"Limit"], path [b!"Offset"]],
        [path [b!"Where", b!"Ids"]], 4)))
    (by decide +kernel)
  obtain ⟨h1, h2, h4, h5⟩ := of_decide_eq_true hp
  exact ⟨q, t, c, { toBuilt := hb, one := h1, fields := h2
                    keys := fun h => by simp [isUpdateWithPKeys, h4] at h },
    ⟨fun h => by simp [h4] at h, fun h => by simp [isSelectCountOrExists, h4] at h⟩, hc, h5⟩

/-- **C39** An update by primary key that sets the key to DEFAULT: the WHERE clause takes a parameter for
which there is no argument. -/
theorem C39_not_default_key : ∃ q t c, Built shopCat q t ∧ generate q t = some c ∧
    outcome c = ([.num 1, .num 2], [path [b!"Users", b!"Name"]], [], 2) := by
  obtain ⟨q, t, c, hb, hc, hp⟩ := code_of (env := env0) (cat := shopCat) (n := b!"UpdateUser")
    (fs := [relFld (.ptr userTy), dirFld b!"Default" [b!"id"]])
    (P := fun _ _ c => decide (outcome c = ([.num 1, .num 2], [path [b!"Users", b!"Name"]], [], 2)))
    (by decide +kernel)
  exact ⟨q, t, c, hb, hc, of_decide_eq_true hp⟩

/-- **C39** A column compared with an array column by IN: the list is taken from the field of the where
struct without a name, and a parameter is lost. -/
theorem C39_not_column_in : ∃ q t c, Built shopCat q t ∧ generate q t = some c ∧
    outcome c = ([.slice 1, .num 0], [path [b!"Where", b!"Age"]], [path [b!"Where", []]], 0) := by
  obtain ⟨q, t, c, hb, hc, hp⟩ := code_of (env := env0) (cat := shopCat) (n := b!"SelectUsers")
    (fs := [relFld (.slice userTy),
      whereOf [dirFld b!"Column" [b!"u.id isin u.tags"], sqlFld b!"Age" [b!"u.age >"] Analysis.intTy]])
    (P := fun _ _ c => decide (outcome c =
      ([.slice 1, .num 0], [path [b!"Where", b!"Age"]], [path [b!"Where", []]], 0)))
    (by decide +kernel)
  exact ⟨q, t, c, hb, hc, of_decide_eq_true hp⟩

/-- **C39** A count with a limit field: the limit is passed but not used. -/
theorem C39_not_count_limit : ∃ q t c, Built shopCat q t ∧ generate q t = some c ∧
    outcome c = ([.num 1], [path [b!"Where", b!"Age"], path [b!"Limit"]], [], 2) := by
  obtain ⟨q, t, c, hb, hc, hp⟩ := code_of (env := env0) (cat := shopCat) (n := b!"SelectUsers")
    (fs := [({ name := b!"Count", tag := [(b!"rel", [b!"users:u"])] }, Analysis.intTy),
      whereOf [sqlFld b!"Age" [b!"u.age >"] Analysis.intTy], ({ name := b!"Limit" }, Analysis.intTy)])
    (P := fun _ _ c => decide (outcome c = ([.num 1], [path [b!"Where", b!"Age"], path [b!"Limit"]], [], 2)))
    (by decide +kernel)
  exact ⟨q, t, c, hb, hc, of_decide_eq_true hp⟩

/-- **C39** An update or delete with joins but without a table to join them to: the generator panics. -/
theorem C39_not_no_panic : ∃ q t, Built shopCat q t ∧ generate q t = none := by
  obtain ⟨q, t, hb, hp⟩ := built_of (env := env0) (cat := shopCat) (n := b!"DeleteUsers")
    (fs := [relOnly, whereFld, ({ name := b!"Using" }, .struct (.ofList
      [dirFld b!"LeftJoin" [b!"posts:p", b!"p.user_id = u.id"]]))])
    (P := fun _ _ g => g.isNone) (by decide +kernel)
  exact ⟨q, t, hb, Option.isNone_iff_eq_none.1 hp⟩

end Verif.Generator
