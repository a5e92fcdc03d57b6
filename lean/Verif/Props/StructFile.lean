import Verif.Lemmas.StructFile
import Verif.Props.Structs

/-!
# C84-C88: the files that `sqddl tables` and `sqddl views` write

The text of the structs, from the catalog of a database to the file and back through the parser of
`generate`; what happens to the file if a run fails; whether the Go compiler can take the file; and the
structs of views.
-/

namespace Sqddl.Structs
open Go CatalogSpec StructSpec
open GoText (Ident SameTokens NoRedeclared)

/-- What `sqddl generate -dest file` makes of the text of a file (/repo/ddl/generate_cmd.go:336-352,
/repo/ddl/struct_parser.go:134-399): the catalog, and whether it reports an error; `none` is an error of
the parser of Go. -/
def destOf (isFloat : Str → Bool) (cat : Catalog) (text : Str) : Option (Catalog × Bool) :=
  ((GoText.file text).bind visitFile).bind fun ss => writeCatalog isFloat ss (emptyLike cat)

theorem structsText_ne {ss : List TableStruct} (h : ss ≠ []) : structsText ss ≠ [] := by
  cases ss with
  | nil => exact absurd rfl h
  | cons s ss => simp [structsText, structText]

/-! ## C84: the file of tables -/

/-- **C84** (partial): if `sqddl tables` ends without an error, the file that it has written — with or
without `-schema-qualified-structs` — is read by `generate` without an error, and what is read has the
same tables as the database.

Missing for the full statement: databases outside of `Fits`, see C73; and names of schemas that are no
identifiers, if they are put into the names of structs. -/
theorem tables_file_describes_partial {isFloat : Str → Bool} {cat : Catalog} (hfit : Fits isFloat cat)
    {sys : RunSystem} (hsys : Trusted sys) {q : Bool} {pkg filename : Str} {old : Option Str}
    {r : RunResult} (hrun : tablesRun sys q pkg filename (some cat) old = some r) (hok : r.ok = true)
    (hfile : filename ≠ []) (hpkg : Ident (packageName sys pkg filename)) (hne : tablesOf cat ≠ [])
    (hq : q = true → ∀ t ∈ tablesOf cat, t.tableSchema = [] ∨ GoName t.tableSchema) :
    ∃ text cat', r.file = some text ∧ destOf isFloat cat text = some (cat', false) ∧
      SameTables cat cat' := by
  obtain ⟨cat', hrt, hsame⟩ := structs_describe_partial hfit
  unfold tablesRun at hrun
  dsimp only at hrun
  rw [readCatalog_fits hfit, Option.map_some] at hrun
  obtain rfl := Option.some.inj hrun
  generalize hss : qualify q cat.currentSchema
    ((tablesOf cat).map (structOf (dialectOf cat.dialect) cat)) = ss at hok ⊢
  obtain ⟨hw, hback⟩ := qualified_roundTrip hfit q hq hss.symm
  have hne' : ss ≠ [] := by
    rw [← hss]
    unfold qualify
    cases q <;> simpa using hne
  have htext : marshalTables ss ≠ [] := by
    unfold marshalTables
    rw [List.filter_eq_self.2 fun s hs => (hw s hs).2]
    exact structsText_ne hne'
  obtain ⟨text, h1, h2⟩ := GoText.writeText_ok hsys htext hfile hok hpkg
  refine ⟨text, cat', h1, ?_, hsame⟩
  unfold destOf
  rw [GoText.tables_read hpkg (fun s hs _ => (hw s hs).1) h2, hback, hrt]

/-- **C84**: for all structs whose names are identifiers and whose tags have no backquote — not only
those of a database — the text is read as the structs that were written: the names, types and name tags
are the same, and the modifiers are those of their own text. -/
theorem tables_text_read {pkg : Str} (hp : Ident pkg) {ss : List TableStruct}
    (h : ∀ s ∈ ss, Writable b!"sq.TableStruct" s) {text : Str}
    (ht : SameTokens text (header pkg ++ marshalTables ss)) {ss' : List TableStruct}
    (hr : (GoText.file text).bind visitFile = some ss') :
    ss'.map (fun s => (s.name, s.fields.map fun f => (f.name, f.type, f.nameTag))) =
      (ss.filter hasColumn).map (fun s => (s.name, s.fields.map fun f => (f.name, f.type, f.nameTag))) ∧
    ∀ p ∈ (ss.filter hasColumn).zip ss', ∀ e ∈ p.1.fields.zip p.2.fields,
      newModifiers (printModifiers e.1.modifiers) = (e.2.modifiers, true) := by
  rw [GoText.tables_read hp (fun s hs _ => h s hs) ht] at hr
  unfold throughText at hr
  clear ht h
  generalize ss.filter hasColumn = l at hr ⊢
  have hfield : ∀ (fs gs : List StructField), fs.mapM fieldThroughText = some gs →
      gs.map (fun f => (f.name, f.type, f.nameTag)) = fs.map (fun f => (f.name, f.type, f.nameTag)) ∧
      ∀ e ∈ fs.zip gs, newModifiers (printModifiers e.1.modifiers) = (e.2.modifiers, true) := by
    intro fs
    induction fs with
    | nil => intro gs hg; obtain rfl : [] = gs := by simpa using hg
             simp
    | cons f fs ih =>
      intro gs hg
      rw [List.mapM_cons] at hg
      cases h1 : fieldThroughText f with
      | none => rw [h1] at hg; cases hg
      | some g =>
        cases h2 : fs.mapM fieldThroughText with
        | none => rw [h1, h2] at hg; cases hg
        | some gs' =>
          rw [h1, h2] at hg
          obtain rfl : g :: gs' = gs := by simpa using hg
          obtain ⟨i1, i2⟩ := ih gs' h2
          unfold fieldThroughText at h1
          dsimp only at h1
          split at h1
          · cases h1
          · split at h1
            · rename_i hb
              obtain rfl := Option.some.inj h1
              refine ⟨by rw [List.map_cons, List.map_cons, i1], fun e he => ?_⟩
              rcases List.mem_cons.1 he with rfl | he
              · show newModifiers _ = ((newModifiers _).1, true)
                rw [← hb]
              · exact i2 e he
            · cases h1
  induction l generalizing ss' with
  | nil => obtain rfl : [] = ss' := by simpa using hr
           simp
  | cons s l ih =>
    rw [List.mapM_cons] at hr
    by_cases hi : isIdent s.name = true
    · rw [if_pos hi] at hr
      cases h1 : s.fields.mapM fieldThroughText with
      | none => rw [h1] at hr; cases hr
      | some gs =>
        rw [h1] at hr
        generalize hM : l.mapM (fun s => if isIdent s.name then
          (s.fields.mapM fieldThroughText).map fun fs => ({ s with fields := fs } : TableStruct) else none) = M at hr
        cases M with
        | none => cases hr
        | some l' =>
          obtain rfl : { s with fields := gs } :: l' = ss' := by simpa using hr
          obtain ⟨i1, i2⟩ := ih hM
          obtain ⟨j1, j2⟩ := hfield _ _ h1
          refine ⟨by rw [List.map_cons, List.map_cons, i1]; simp only [j1], fun p hp => ?_⟩
          rcases List.mem_cons.1 hp with rfl | hp
          · exact j2
          · exact i2 p hp
    · rw [if_neg hi] at hr; cases hr

/-- A system without errors, on which gofmt changes nothing. -/
def plainSystem : RunSystem := { format := some }

theorem plainSystem_trusted : Trusted plainSystem :=
  ⟨fun a b h => by cases h; rfl, fun _ _ => rfl, fun _ _ => rfl⟩

/-- The sample of Postgres, with schemas in the names of the structs. -/
example : ∃ r text cat', tablesRun plainSystem true b!"tables" b!"tables.go" (some Samples.pg) none = some r ∧
    r.file = some text ∧ destOf (fun _ => false) Samples.pg text = some (cat', false) ∧
    SameTables Samples.pg cat' := by
  have hrun := readCatalog_fits Samples.pg_fits
  obtain ⟨r, hr⟩ : ∃ r, tablesRun plainSystem true b!"tables" b!"tables.go" (some Samples.pg) none = some r := by
    unfold tablesRun
    dsimp only
    rw [hrun]
    exact ⟨_, rfl⟩
  have hok : r.ok = true := by
    unfold tablesRun at hr
    dsimp only at hr
    rw [hrun] at hr
    obtain rfl := Option.some.inj hr
    dsimp only
    unfold writeText
    split
    · rfl
    · rfl
  obtain ⟨text, cat', h1, h2, h3⟩ := tables_file_describes_partial Samples.pg_fits plainSystem_trusted hr hok
    (by decide) (by decide) (by decide) (fun _ t ht => by
      have : ∀ t ∈ tablesOf Samples.pg, t.tableSchema = b!"public" ∨ t.tableSchema = b!"app" := by decide
      rcases this t ht with h | h <;> (rw [h]; exact Or.inr (by unfold GoName; decide)))
  exact ⟨r, text, cat', hr, h1, h2, h3⟩

/-- A struct with a tag that has a quotation mark in it. -/
example : ((GoText.file (header b!"db" ++ marshalTables
      [{ name := b!"T", fields := [{ type := b!"sq.TableStruct", nameTag := b!"a\"b" },
        { name := b!"N", type := b!"sq.NumberField", modifiers := [.mk [] b!"notnull" [] [] []] }] }])).bind
      visitFile).map (·.map fun s =>
        [s.name] :: s.fields.map fun f => [f.name, f.type, f.nameTag, printModifiers f.modifiers]) =
    some [[[b!"T"], [[], b!"sq.TableStruct", b!"a\"b", []], [b!"N", b!"sq.NumberField", [], b!"notnull"]]] := by
  decide +kernel

/-! ## C85: a run and the file -/

/-- **C85**: if the run ends with an error and neither of the two writes has failed, the file is as it
was before. -/
theorem run_fails_keeps {sys : RunSystem} (h1 : ∀ s, (sys.write1 s).2 = true)
    (h2 : ∀ s, (sys.write2 s).2 = true) {pkg filename text : Str} {old : Option Str}
    (hok : (writeText sys pkg filename text old).ok = false) :
    (writeText sys pkg filename text old).file = old ∧ (writeText sys pkg filename text old).stdout = [] := by
  have hb : ∀ a b, (writeBoth sys a b).2 = true := by
    intro a b
    unfold writeBoth
    dsimp only
    rw [if_pos (h1 a)]
    exact h2 b
  unfold writeText at hok ⊢
  split
  · exact ⟨rfl, rfl⟩
  · rename_i ht
    rw [if_neg ht] at hok
    split
    · exact ⟨rfl, rfl⟩
    · rename_i hm
      rw [if_neg hm] at hok
      cases hf : sys.format text with
      | none => exact ⟨rfl, rfl⟩
      | some out =>
        rw [hf] at hok
        dsimp only at hok ⊢
        by_cases hfn : filename ≠ []
        · rw [if_pos hfn] at hok ⊢
          by_cases ho : sys.openOk = true
          · rw [if_pos ho] at hok
            dsimp only at hok
            rw [hb] at hok
            cases hok
          · rw [if_neg ho]
            exact ⟨rfl, rfl⟩
        · rw [if_neg hfn] at hok
          dsimp only at hok
          rw [hb] at hok
          cases hok

/-- **C85**: an introspection that fails does not touch the file. -/
theorem run_introspect_keeps (sys : RunSystem) (q : Bool) (pkg filename : Str) (old : Option Str) :
    tablesRun sys q pkg filename none old = some { file := old, ok := false } ∧
    viewsRun sys pkg filename none old = some { file := old, ok := false } := ⟨rfl, rfl⟩

/-- **C85** (partial): a run that ends without an error and has something to write leaves a file with
the tokens of the text, whatever was in it before.

Missing for the full statement: runs that have nothing to write, see `run_stale_refuted`. -/
theorem run_writes_partial {sys : RunSystem} (hsys : Trusted sys) {pkg filename text : Str} {old : Option Str}
    (htext : text ≠ []) (hfile : filename ≠ []) (hok : (writeText sys pkg filename text old).ok = true)
    (hp : Ident (packageName sys pkg filename)) :
    ∃ out, (writeText sys pkg filename text old).file = some out ∧
      SameTokens out (header (packageName sys pkg filename) ++ text) :=
  GoText.writeText_ok hsys htext hfile hok hp

/-- **C85**: the package always has a name, the one that is asked for if there is one. -/
theorem package_named (sys : RunSystem) (pkg filename : Str) :
    packageName sys pkg filename ≠ [] ∧ (pkg ≠ [] → packageName sys pkg filename = pkg) ∧
    (pkg = [] → filename = [] → packageName sys pkg filename = b!"_") := by
  unfold packageName
  dsimp only
  refine ⟨?_, fun h => ?_, fun h1 h2 => ?_⟩
  · have key : ∀ q : Str, (if q = [] then b!"_" else q) ≠ [] := by
      intro q
      by_cases hq : q = []
      · rw [if_pos hq]; decide
      · rw [if_neg hq]; exact hq
    exact key _
  · simp [h]
  · simp [h1, h2]

/-- **C85**: without a file name no file is touched; a run that ends without an error and has something
to write prints the text. -/
theorem run_prints {sys : RunSystem} (hsys : Trusted sys) {pkg text : Str} {old : Option Str} :
    (writeText sys pkg [] text old).file = old ∧
    (text ≠ [] → (writeText sys pkg [] text old).ok = true →
      (pkg ≠ [] → Ident pkg) →
      SameTokens (writeText sys pkg [] text old).stdout
        (header (if pkg = [] then b!"_" else pkg) ++ text)) := by
  have hp : packageName sys pkg [] = if pkg = [] then b!"_" else pkg := by
    unfold packageName
    simp
  have hm : ¬ (pkg = [] ∧ ([] : Str) ≠ [] ∧ sys.mkdir = false) := fun h => h.2.1 rfl
  refine ⟨?_, fun htext hok hid => ?_⟩
  · unfold writeText
    by_cases ht : text = []
    · rw [if_pos ht]
    · rw [if_neg ht, if_neg hm]
      cases sys.format text with
      | none => rfl
      | some out => rfl
  · unfold writeText at hok ⊢
    rw [if_neg htext, if_neg hm] at hok ⊢
    cases hf : sys.format text with
    | none => rw [hf] at hok; cases hok
    | some out =>
      rw [hf] at hok
      simp only [ne_eq, not_true_eq_false, if_false] at hok ⊢
      rw [← hp]
      unfold writeBoth at hok ⊢
      dsimp only at hok ⊢
      by_cases h3 : (sys.write1 (header (packageName sys pkg []))).2 = true
      · rw [if_pos h3] at hok ⊢
        dsimp only at hok ⊢
        rw [hsys.write1 _ h3, hsys.write2 _ hok]
        refine GoText.sameTokens_header ?_ (hsys.format _ _ hf)
        rw [hp]
        split
        · unfold Ident; decide
        · exact hid ‹_›
      · rw [if_neg h3] at hok
        exact absurd hok h3

example : (writeText plainSystem [] [] b!"type T struct {\n}\n" (some b!"old")).ok = true ∧
    (writeText plainSystem [] [] b!"type T struct {\n}\n" (some b!"old")).stdout =
      b!"package _\n\nimport \"github.com/bokwoon95/sq\"\n\ntype T struct {\n}\n" := by decide +kernel

example : (writeText { plainSystem with openOk := false } b!"db" b!"tables.go" b!"type T struct {\n}\n"
    (some b!"old")).ok = false ∧
  (writeText { plainSystem with openOk := false } b!"db" b!"tables.go" b!"type T struct {\n}\n"
    (some b!"old")).file = some b!"old" := by decide +kernel

/-- **C85** (refuted): after a run without an error the file does not have to be that of the database:
if there are no tables (any more), the structs of the last run stay in the file. -/
theorem run_stale_refuted (sys : RunSystem) (q : Bool) (pkg filename : Str) (cat : Catalog)
    (h : tablesOf cat = []) (old : Option Str) :
    tablesRun sys q pkg filename (some cat) old = some { file := old, ok := true } := by
  unfold tablesRun readCatalog
  dsimp only
  rw [show cat.schemas.flatMap (·.tables) = [] from h]
  cases q <;> rfl

/-- **C85** (refuted): a write that fails leaves a file without its end; the file of the last run is
lost. -/
theorem run_truncated_refuted : ∃ sys : RunSystem, Trusted sys ∧
    ∀ (pkg filename text : Str) (old : Option Str), text ≠ [] → filename ≠ [] → pkg ≠ [] →
      (writeText sys pkg filename text old).ok = false ∧ (writeText sys pkg filename text old).file = some [] := by
  refine ⟨{ format := some, write1 := fun _ => ([], false) }, ⟨fun a b h => by cases h; rfl,
    fun _ h => (by cases h), fun _ _ => rfl⟩, ?_⟩
  intro pkg filename text old h1 h2 h3
  unfold writeText
  rw [if_neg h1, if_neg (fun h => h3 h.1)]
  dsimp only
  rw [if_pos h2, if_pos rfl]
  exact ⟨rfl, rfl⟩

/-! ## C86: what the compiler says -/

theorem nodup_map_of {α β γ : Type} {f : α → β} {g : α → γ} : ∀ {l : List α}, (l.map g).Nodup →
    (∀ a ∈ l, ∀ b ∈ l, f a = f b → g a = g b) → (l.map f).Nodup
  | [], _, _ => by simp
  | a :: l, h, hf => by
    rw [List.map_cons, List.nodup_cons] at h ⊢
    refine ⟨fun hm => ?_, nodup_map_of h.2 fun x hx y hy => hf x (by simp [hx]) y (by simp [hy])⟩
    obtain ⟨b, hb, he⟩ := List.mem_map.1 hm
    exact h.1 (List.mem_map.2 ⟨b, hb, (hf a (by simp) b (by simp [hb]) he.symm).symm⟩)

/-- Names that are not quoted can be told apart by the names of structs and fields. -/
theorem upper_inj {a b : Str} (ha : GoName a) (hb : GoName b) (qa : needsQuoting a = false)
    (qb : needsQuoting b = false) (h : toUpper (noSpace a) = toUpper (noSpace b)) : a = b := by
  rw [← toLower_toUpper ha qa, ← toLower_toUpper hb qb, h]

theorem needsQuoting_append {a b : Str} (ha0 : a ≠ []) (ha : needsQuoting a = false) (hb : needsQuoting b = false) :
    needsQuoting (a ++ b!"_" ++ b) = false := by
  unfold needsQuoting at *
  rw [Bool.or_eq_false_iff] at *
  refine ⟨?_, ?_⟩
  · cases a with
    | nil => exact absurd rfl ha0
    | cons c a => simpa using ha.1
  · rw [List.any_append, List.any_append, ha.2, hb.2]
    rfl

/-- The tables of a well-formed catalog are told apart by schema and name. -/
theorem tables_nodup {cat : Catalog} (h : Ok cat) :
    ((tablesOf cat).map fun t => (t.tableSchema, t.tableName)).Nodup := by
  unfold tablesOf
  rw [List.map_flatMap]
  unfold List.Nodup
  rw [List.pairwise_flatMap]
  refine ⟨fun s hs => ?_, ?_⟩
  · have := (h.ok s hs).tables
    refine nodup_map_of this ?_
    intro a _ b _ e
    exact (Prod.mk.inj e).2
  · have hn := h.schemas
    unfold List.Nodup at hn
    rw [List.pairwise_map] at hn
    refine List.Pairwise.imp_of_mem ?_ hn
    intro s s' hs hs' hne x hx y hy e
    obtain ⟨a, ha, rfl⟩ := List.mem_map.1 hx
    obtain ⟨b, hb, rfl⟩ := List.mem_map.1 hy
    have h1 := (h.ok s hs).schemaName a ha
    have h2 := (h.ok s' hs').schemaName b hb
    have h3 := (Prod.mk.inj e).1
    rw [h1, h2] at h3
    exact hne h3

/-- No column has the name of another one as the name of its field. -/
theorem fields_nodup {isFloat : Str → Bool} {d : Dialect} {cat : Catalog} {t : Table}
    (hf : TableFits isFloat d cat t) (hok : TableOk t) (hq : ∀ c ∈ t.columns, needsQuoting c.columnName = false) :
    (((structOf d cat t).fields.map (·.name)).filter (· ≠ b!"_")).Nodup := by
  have hcols : (t.columns.map fun c => toUpper (noSpace c.columnName)).Nodup :=
    nodup_map_of hok.columns fun a ha b hb e =>
      upper_inj (hf.columns a ha).name (hf.columns b hb).name (hq a ha) (hq b hb) e
  have hne : ∀ x ∈ t.columns.map (fun c => toUpper (noSpace c.columnName)), x ≠ [] ∧ x ≠ b!"_" := by
    intro x hx
    obtain ⟨c, hc, rfl⟩ := List.mem_map.1 hx
    exact toUpper_ne (hf.columns c hc).name
  have e : ((structOf d cat t).fields.map (·.name)).filter (· ≠ b!"_") =
      [] :: t.columns.map fun c => toUpper (noSpace c.columnName) := by
    have h1 : (structOf d cat t).fields.map (·.name) =
        [] :: (t.columns.map (fun c => toUpper (noSpace c.columnName)) ++
          ((restKeysOf t).map (fun _ => b!"_") ++ (restIndexesOf t).map (fun _ => b!"_"))) := by
      simp [structOf, columnFieldOf, blankField, Function.comp_def]
    rw [h1, List.filter_cons_of_pos (by decide), List.filter_append, List.filter_append]
    rw [List.filter_eq_self.2 fun x hx => by simpa using (hne x hx).2]
    rw [List.filter_eq_nil_iff.2, List.filter_eq_nil_iff.2]
    · simp
    · intro x hx; obtain ⟨_, _, rfl⟩ := List.mem_map.1 hx; simp
    · intro x hx; obtain ⟨_, _, rfl⟩ := List.mem_map.1 hx; simp
  rw [e, List.nodup_cons]
  exact ⟨fun h => (hne _ h).1 rfl, hcols⟩

/-- **C86** (partial): the file declares no type and no field twice, if no name of a table or column
needs quotation marks and either the names of all tables are different, or they are qualified and no
name of a schema has an underscore.

Missing for the full statement: see the refutations below. -/
theorem declared_once_partial {isFloat : Str → Bool} {cat : Catalog} (hfit : Fits isFloat cat) {q : Bool}
    {ss : List TableStruct} (hss : readCatalog cat = some ss)
    (hcol : ∀ t ∈ tablesOf cat, ∀ c ∈ t.columns, needsQuoting c.columnName = false)
    (htab : ∀ t ∈ tablesOf cat, needsQuoting t.tableName = false)
    (hq : if q then ∀ t ∈ tablesOf cat, GoName t.tableSchema ∧ needsQuoting t.tableSchema = false ∧
        '_' ∉ t.tableSchema
      else ((tablesOf cat).map (·.tableName)).Nodup) :
    ∃ asts, GoText.file (header b!"db" ++ marshalTables (qualify q cat.currentSchema ss)) = some asts ∧
      NoRedeclared asts := by
  rw [readCatalog_fits hfit] at hss
  obtain rfl := Option.some.inj hss
  generalize hS : qualify q cat.currentSchema
    ((tablesOf cat).map (structOf (dialectOf cat.dialect) cat)) = S
  have hq1 : q = true → ∀ t ∈ tablesOf cat, t.tableSchema = [] ∨ GoName t.tableSchema := by
    rintro rfl t ht
    exact Or.inr (hq t ht).1
  obtain ⟨hw, _⟩ := qualified_roundTrip hfit q hq1 hS.symm
  have hform : S = (tablesOf cat).map fun t =>
      (if q then qualifyStruct cat.currentSchema (structOf (dialectOf cat.dialect) cat t)
        else structOf (dialectOf cat.dialect) cat t) := by
    rw [← hS]
    unfold qualify
    cases q
    · rfl
    · simp
  have hread : GoText.file (header b!"db" ++ marshalTables S) = some (S.map GoText.astStruct) := by
    unfold marshalTables
    rw [List.filter_eq_self.2 fun s hs => (hw s hs).2]
    exact GoText.file_read (by decide) (fun s hs => GoText.writable_ok (hw s hs).1 (by decide)) rfl
  refine ⟨_, hread, ?_, ?_⟩
  · rw [List.map_map, show (fun a : AstStruct => a.name) ∘ GoText.astStruct = fun s : TableStruct => s.name from rfl,
      hform, List.map_map]
    cases q with
    | false =>
      refine nodup_map_of (g := (·.tableName)) (by simpa using hq) ?_
      intro a ha b hb e
      exact upper_inj (fits_table hfit ha).1.name (fits_table hfit hb).1.name (htab a ha) (htab b hb) e
    | true =>
      simp only [if_true] at hq ⊢
      refine nodup_map_of (tables_nodup hfit.ok) ?_
      have hname : ∀ t ∈ tablesOf cat,
          (qualifyStruct cat.currentSchema (structOf (dialectOf cat.dialect) cat t)).name =
            toUpper (noSpace (t.tableSchema ++ b!"_" ++ t.tableName)) := by
        intro t ht
        rw [qualifyStruct_eq (fits_table hfit ht).1, if_neg (hq t ht).1.1]
        rfl
      intro a ha b hb e
      have e' : toUpper (noSpace (a.tableSchema ++ b!"_" ++ a.tableName)) =
          toUpper (noSpace (b.tableSchema ++ b!"_" ++ b.tableName)) := by
        rw [← hname a ha, ← hname b hb]; exact e
      have h1 := upper_inj (goName_qualified (hq a ha).1 (fits_table hfit ha).1.name)
        (goName_qualified (hq b hb).1 (fits_table hfit hb).1.name)
        (needsQuoting_append (hq a ha).1.1 (hq a ha).2.1 (htab a ha))
        (needsQuoting_append (hq b hb).1.1 (hq b hb).2.1 (htab b hb)) e'
      have hcut : ∀ x y : Str, '_' ∉ x → (x ++ b!"_" ++ y).takeWhile (· ≠ '_') = x ∧
          (x ++ b!"_" ++ y).dropWhile (· ≠ '_') = '_' :: y := by
        intro x y hx
        have hp : ∀ c ∈ x, (decide (c ≠ '_')) = true := by
          intro c hc
          rw [decide_eq_true_eq]
          rintro rfl
          exact hx hc
        rw [List.append_assoc, List.takeWhile_append_of_pos hp, List.dropWhile_append_of_pos hp]
        simp
      obtain ⟨c1, c2⟩ := hcut a.tableSchema a.tableName (hq a ha).2.2
      obtain ⟨d1, d2⟩ := hcut b.tableSchema b.tableName (hq b hb).2.2
      rw [h1] at c1 c2
      rw [c1] at d1
      rw [c2] at d2
      rw [d1, (List.cons.inj d2).2]
  · intro a ha
    obtain ⟨s, hs, rfl⟩ := List.mem_map.1 ha
    rw [hform] at hs
    obtain ⟨t, ht, rfl⟩ := List.mem_map.1 hs
    have hf := (fits_table hfit ht).1
    have hbase := fields_nodup hf (fits_table hfit ht).2 (hcol t ht)
    have hn : ∀ s : TableStruct, (GoText.astStruct s).fields.map (·.name) = s.fields.map (·.name) := by
      intro s
      simp [GoText.astStruct, GoText.astField]
    rw [hn]
    cases q with
    | false => exact hbase
    | true =>
      simp only [if_true]
      rw [qualifyStruct_eq hf]
      split
      · exact hbase
      · exact hbase

/-- A table with one column. -/
def oneColumn (schema name : Str) (cols : List Str) : Table :=
  { tableSchema := schema, tableName := name
    columns := cols.map fun c => { columnName := c, columnType := b!"INT" } }

/-- A Postgres database with these tables. -/
def twoTables (a b : Table) : Catalog :=
  { dialect := b!"postgres", currentSchema := b!"public"
    schemas := [{ schemaName := a.tableSchema, tables := [a] }, { schemaName := b.tableSchema, tables := [b] }] }

/-- The struct types of the file for a database. -/
def declared (q : Bool) (cat : Catalog) : Option (List AstStruct) :=
  (readCatalog cat).bind fun ss =>
    GoText.file (header b!"db" ++ marshalTables (qualify q cat.currentSchema ss))

example : (declared true (twoTables (oneColumn b!"public" b!"users" [b!"id", b!"email"])
    (oneColumn b!"app" b!"users" [b!"id"]))).any fun asts => decide (NoRedeclared asts) := by
  decide +kernel

/-- **C86** (refuted): the files below declare a type or a field twice, and do not compile: tables of
the same name in two schemas; tables whose names differ in the case of letters only; columns of which
one has a space where the other has an underscore; and, with the schemas in the names of the structs,
tables `b_c` in the schema `a` and `c` in the schema `a_b`. -/
theorem declared_once_refuted :
    (∃ asts, declared false (twoTables (oneColumn b!"public" b!"users" [b!"id"])
      (oneColumn b!"app" b!"users" [b!"id"])) = some asts ∧ ¬NoRedeclared asts) ∧
    (∃ asts, declared false (twoTables (oneColumn b!"public" b!"users" [b!"id"])
      (oneColumn b!"app" b!"Users" [b!"id"])) = some asts ∧ ¬NoRedeclared asts) ∧
    (∃ asts, declared false (twoTables (oneColumn b!"public" b!"users" [b!"a b", b!"a_b"])
      (oneColumn b!"app" b!"posts" [b!"id"])) = some asts ∧ ¬NoRedeclared asts) ∧
    (∃ asts, declared true (twoTables (oneColumn b!"a" b!"b_c" [b!"id"])
      (oneColumn b!"a_b" b!"c" [b!"id"])) = some asts ∧ ¬NoRedeclared asts) := by
  refine ⟨⟨(declared false (twoTables (oneColumn b!"public" b!"users" [b!"id"])
      (oneColumn b!"app" b!"users" [b!"id"]))).getD [], ?_, ?_⟩,
    ⟨(declared false (twoTables (oneColumn b!"public" b!"users" [b!"id"])
      (oneColumn b!"app" b!"Users" [b!"id"]))).getD [], ?_, ?_⟩,
    ⟨(declared false (twoTables (oneColumn b!"public" b!"users" [b!"a b", b!"a_b"])
      (oneColumn b!"app" b!"posts" [b!"id"]))).getD [], ?_, ?_⟩,
    ⟨(declared true (twoTables (oneColumn b!"a" b!"b_c" [b!"id"])
      (oneColumn b!"a_b" b!"c" [b!"id"]))).getD [], ?_, ?_⟩⟩ <;> decide +kernel

end Sqddl.Structs
