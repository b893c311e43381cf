import Verif.Lemmas.DenseDb
/-!
# C39: dense database builders
-/
namespace Verif
open Res Spec

/-- C39: a program that starts with one new builder and inserts, clears, clones and builds in any order,
on any of the builders it has. Every `Build` fails with FAILED_PRECONDITION if this builder was already
built and not cleared since (also if it was cloned from a built one); otherwise the database contains
exactly the records inserted into this builder (or into the one it was cloned from, up to then) since it
was last cleared, in order. -/
theorem C39_programs (ops : List BuilderOp) :
    (runBuilders [DenseBuilder.new] ops).map (fun r => r >>= DenseDb.content) =
      runAbstract [⟨[], false⟩] ops := by
  apply run_eq
  refine ⟨rfl, ?_⟩
  intro i b a hb ha
  match i, hb, ha with
  | 0, hb, ha =>
    simp at hb ha
    subst hb; subst ha
    exact ⟨rfl, fun _ => ⟨rfl, rfl, rfl⟩⟩

/-- C39: a database with the given records can always be built. It has as many records as were inserted,
they read back unchanged, and its `max_value_size_in_bytes` is the length of the longest one. -/
theorem C39_built (records : List Bytes) :
    ∃ db, BuiltFrom records db ∧ db.content = ok records ∧ db.size = records.length ∧
      db.maxValueSize = maxLength records := by
  obtain ⟨db, h⟩ := builtFrom_exists records
  have hh := builtFrom_holds h
  exact ⟨db, h, hh.content, hh.size, hh.max⟩

/-- C39 on a program: insert two records, clone, build the original twice, insert another record into the
clone, build it, clear the original and build it again. -/
example : (runBuilders [DenseBuilder.new] [.insert 0 [1, 2, 3], .insert 0 [], .clone 0, .build 0, .build 0,
      .insert 1 [7], .build 1, .clear 0, .insert 0 [9], .build 0]).map (fun r => r >>= DenseDb.content) =
    [ok [[1, 2, 3], []], err .failedPrecondition, ok [[1, 2, 3], [], [7]], ok [[9]]] := by
  rw [C39_programs]; rfl

end Verif
