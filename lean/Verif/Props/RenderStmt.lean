import Verif.Props.RenderIndex
import Verif.Lemmas.DdlStmt
import Verif.Spec.DdlStmt
import Verif.Model.MigrationFiles

/-!
# Whole statements are read back (C66)
-/

namespace Sqddl.Render
open Go SqlSpec DdlText CatalogSpec
open Sqddl.Wipe (qualified buffer addStmt)

/-- A text that is one statement. -/
def IsStmt (d : Dialect) (cur s : Str) (st : Stmt) : Prop :=
  s ≠ [] ∧ ∃ ts, Reads d s (ts ++ [.punct ';']) ∧ Tok.punct ';' ∉ ts ∧
    (readStmt d (keywords d) ts).map (Stmt.resolve d cur) = some st

theorem reads_flatMap {α : Type} {d : Dialect} (xs : List α) (f : α → Str) (g : α → List Tok)
    (h : ∀ x ∈ xs, Reads d (f x) (g x)) : Reads d (xs.flatMap f) (xs.flatMap g) := by
  induction xs with
  | nil => exact Reads.nil d
  | cons x r ih =>
    simp only [List.flatMap_cons]
    exact (h x (by simp)).append (ih fun y hy => h y (by simp [hy]))

/-- The tokens of a buffer of statements. -/
theorem reads_buffer (d : Dialect) (ps : List (Str × List Tok)) (h0 : ∀ p ∈ ps, p.1 ≠ [])
    (h : ∀ p ∈ ps, Reads d p.1 p.2) : Reads d (buffer (ps.map (·.1))) (ps.flatMap (·.2)) := by
  cases ps with
  | nil => exact Reads.nil d
  | cons p r =>
    have e : buffer ((p :: r).map (·.1)) = p.1 ++ r.flatMap fun q => b!"\n" ++ q.1 := by
      simp only [buffer, List.map_cons, List.foldl_cons]
      have : addStmt [] p.1 = p.1 := by simp [addStmt]
      rw [this, Wipe.buffer_fold _ _ (h0 p (by simp)), List.flatMap_map]
    rw [e]
    simp only [List.flatMap_cons]
    refine (h p (by simp)).append (reads_flatMap r _ _ fun q hq => ?_)
    have := (reads_lit d b!"\n" (by decide) (by decide)).append (h q (by simp [hq]))
    have e : stoks b!"\n" = [] := by decide
    rw [e] at this
    exact this

theorem statements_flatMap (tss : List (List Tok)) (h : ∀ ts ∈ tss, Tok.punct ';' ∉ ts) :
    statements (tss.flatMap fun ts => ts ++ [.punct ';']) = tss := by
  induction tss with
  | nil => rfl
  | cons ts tss ih =>
    simp only [List.flatMap_cons, List.append_assoc, List.cons_append, List.nil_append]
    rw [statements_append _ _ (h ts (by simp)), ih fun x hx => h x (by simp [hx])]

/-- A buffer of statements is read as the statements. -/
theorem runScript_buffer (d : Dialect) (cur : Str) (ps : List (Str × Stmt))
    (h : ∀ p ∈ ps, IsStmt d cur p.1 p.2) :
    runScript d (keywords d) cur (buffer (ps.map (·.1))) = some (ps.map (·.2)) := by
  have key : ∃ qs : List ((Str × List Tok) × Stmt), qs.map (fun q => q.1.1) = ps.map (·.1) ∧
      qs.map (fun q => q.2.resolve d cur) = ps.map (·.2) ∧
      ∀ q ∈ qs, q.1.1 ≠ [] ∧ Reads d q.1.1 (q.1.2 ++ [.punct ';']) ∧ Tok.punct ';' ∉ q.1.2 ∧
        readStmt d (keywords d) q.1.2 = some q.2 := by
    induction ps with
    | nil => exact ⟨[], rfl, rfl, by simp⟩
    | cons p r ih =>
      obtain ⟨qs, e1, e2, e3⟩ := ih fun q hq => h q (by simp [hq])
      obtain ⟨h1, ts, h2, h3, h4⟩ := h p (by simp)
      obtain ⟨st, h5, h6⟩ := Option.map_eq_some_iff.1 h4
      refine ⟨((p.1, ts), st) :: qs, by simp [e1], by simp [e2, h6], ?_⟩
      intro q hq
      simp only [List.mem_cons] at hq
      rcases hq with rfl | hq
      · exact ⟨h1, h2, h3, h5⟩
      · exact e3 q hq
  obtain ⟨qs, e1, e2, e3⟩ := key
  have hr := reads_buffer d (qs.map fun q => (q.1.1, q.1.2 ++ [.punct ';']))
    (by intro p hp; simp only [List.mem_map] at hp; obtain ⟨q, hq, rfl⟩ := hp; exact (e3 _ hq).1)
    (by intro p hp; simp only [List.mem_map] at hp; obtain ⟨q, hq, rfl⟩ := hp; exact (e3 _ hq).2.1)
  have e4 : (qs.map fun q => (q.1.1, q.1.2 ++ [Tok.punct ';'])).map (·.1) = ps.map (·.1) := by
    rw [← e1]; simp
  have e5 : (qs.map fun q => (q.1.1, q.1.2 ++ [Tok.punct ';'])).flatMap (·.2) =
      (qs.map fun q => q.1.2).flatMap fun ts => ts ++ [.punct ';'] := by
    simp [List.flatMap_map]
  rw [e4, e5] at hr
  have hl := lex_of_readsP hr.readsP
  unfold runScript readScript
  rw [hl, Option.bind_some, statements_flatMap _ (by
    intro ts hts; simp only [List.mem_map] at hts; obtain ⟨q, hq, rfl⟩ := hts
    exact (e3 _ hq).2.2.1)]
  rw [mapM_map_some (readStmt d (keywords d)) (fun q => q.1.2) (fun q => q.2) qs
    fun q hq => (e3 q hq).2.2.2]
  simp [← e2]

theorem runScript_one (d : Dialect) (cur s : Str) (st : Stmt) (h : IsStmt d cur s st) :
    runScript d (keywords d) cur s = some [st] := by
  have := runScript_buffer d cur [(s, st)] (by simpa using h)
  simpa [buffer, addStmt] using this

theorem runScript_nil (d : Dialect) (cur : Str) : runScript d (keywords d) cur [] = some [] := rfl

/-- A text that is written before a semicolon. -/
theorem isStmt_of {d : Dialect} {cur s : Str} {ts : List Tok} {st : Stmt} (e : Str)
    (h : ReadsP d s ts) (hs : bal 0 ts) (he : IsGap e [.punct ';'])
    (hr : (readStmt d (keywords d) ts).map (Stmt.resolve d cur) = some st) :
    IsStmt d cur (s ++ e) st := by
  refine ⟨?_, ts, h.lit he, flat_no_semi 0 ts hs, hr⟩
  have := he.1.2.2.1
  simp [this]

theorem gap_semi : IsGap b!";\n" [.punct ';'] := by decide

/-! ## Schemas and DROP -/

/-- C66: CREATE SCHEMA. -/
theorem createSchema_reads_back (d : Dialect) (cur n : Str) (hd : d = .postgres ∨ d = .mysql)
    (h : PlainName d n) : IsStmt d cur (createSchema d n) (.createSchema n) := by
  have p := (reads_lit d b!"CREATE SCHEMA IF NOT EXISTS " (by decide) (by decide)).append_p
    (readsP_ident d n)
  have e : createSchema d n =
      (b!"CREATE SCHEMA IF NOT EXISTS " ++ quoteIdentifier d n) ++ b!";\n" := by
    rcases hd with rfl | rfl <;> rfl
  rw [e]
  have hb : bal 0 (stoks b!"CREATE SCHEMA IF NOT EXISTS " ++ [identTok d n]) :=
    bal_append0 _ _ (by decide) (flat_bal _ _ (flat_ident d n))
  refine isStmt_of _ p hb gap_semi ?_
  have e2 : stoks b!"CREATE SCHEMA IF NOT EXISTS " = [.word b!"CREATE", .word b!"SCHEMA",
    .word b!"IF", .word b!"NOT", .word b!"EXISTS"] := by decide
  rw [e2]
  exact congrArg (Option.map (Stmt.resolve d cur)) (readStmt_createSchema d n h)

/-- C66: DROP SCHEMA. -/
theorem dropSchema_reads_back (d : Dialect) (cur n : Str) (h : PlainName d n) :
    IsStmt d cur (Files.dropSchema d n) (.dropSchema n) := by
  have p := (reads_lit d b!"DROP SCHEMA IF EXISTS " (by decide) (by decide)).append_p
    (readsP_ident d n)
  have hb : bal 0 (stoks b!"DROP SCHEMA IF EXISTS " ++ [identTok d n]) :=
    bal_append0 _ _ (by decide) (flat_bal _ _ (flat_ident d n))
  refine isStmt_of _ p hb gap_semi ?_
  have e2 : stoks b!"DROP SCHEMA IF EXISTS " = [.word b!"DROP", .word b!"SCHEMA",
    .word b!"IF", .word b!"EXISTS"] := by decide
  rw [e2]
  exact congrArg (Option.map (Stmt.resolve d cur)) (readStmt_dropSchema d n h)

theorem full_tableName (cur s n : Str) : full cur (tableName cur s n) = fullName cur s n := by
  unfold full tableName fullName
  by_cases h : s = [] ∨ s = cur
  · rw [if_pos h]
    rcases h with rfl | rfl
    · simp
    · simp
  · rw [if_neg h]
    have : s ≠ [] := fun e => h (Or.inl e)
    simp [this]

theorem tableName_plain (d : Dialect) (cur s n : Str) (hs : s ≠ [] → PlainName d s) :
    ∀ x ∈ (tableName cur s n).1, PlainName d x := by
  intro x hx
  unfold tableName at hx
  simp only at hx
  split at hx
  · cases hx
  · rename_i h; cases hx; exact hs fun e => h (Or.inl e)

/-- C66: DROP TABLE. -/
theorem dropTable_reads_back (d : Dialect) (cur : Str) (t : Table)
    (hs : t.tableSchema ≠ [] → PlainName d t.tableSchema) (hn : PlainName d t.tableName) :
    IsStmt d cur (Files.dropTable d cur t) (.dropTable (fullName cur t.tableSchema t.tableName)) := by
  have p := (reads_lit d b!"DROP TABLE IF EXISTS " (by decide) (by decide)).append_p
    (readsP_qualified d cur t.tableSchema t.tableName)
  have hb : bal 0 (stoks b!"DROP TABLE IF EXISTS " ++
      qnameToks d (tableName cur t.tableSchema t.tableName)) :=
    bal_append0 _ _ (by decide) (flat_bal _ _ (flat_qname d _))
  refine isStmt_of _ p hb gap_semi ?_
  have e2 : stoks b!"DROP TABLE IF EXISTS " = [.word b!"DROP", .word b!"TABLE",
    .word b!"IF", .word b!"EXISTS"] := by decide
  rw [e2]
  have := readStmt_dropTable d (tableName cur t.tableSchema t.tableName)
    (tableName_plain d cur _ _ hs) hn
  have := congrArg (Option.map (Stmt.resolve d cur)) this
  simpa [Stmt.resolve, full_tableName] using this

/-! ## CREATE TABLE -/

/-- The table schema that the statement names is that of the table. -/
theorem implicit_owner (d : Dialect) (cur s n : Str) :
    implicitSchema d cur ((tableName cur s n).1.getD cur) = implicitSchema d cur s := by
  unfold implicitSchema tableName
  by_cases h : s = [] ∨ s = cur
  · simp only [h, if_true, Option.getD_none]
    rcases h with rfl | rfl <;> simp
  · simp [h]

theorem con_owner (d : Dialect) (cur s n : Str) (c : Con) :
    c.resolve d cur ((tableName cur s n).1.getD cur) = c.resolve d cur s := by
  unfold Con.resolve
  cases c.kind <;> simp [DdlText.resolve, implicit_owner]

/-- Items written with commas between them. -/
theorem piece_items (d : Dialect) (xs ys : List (Str × List Tok)) (h0 : xs ≠ [])
    (hx : ∀ p ∈ xs, ReadsP d p.1 p.2) (hy : ∀ p ∈ ys, ReadsP d p.1 p.2) :
    Piece d (tableItems (xs.map (·.1)) (ys.map (·.1))) (commaSep ((xs ++ ys).map (·.2))) := by
  have hc : ∀ (s : Str), IsGap s [.punct ','] → ∀ zs : List (Str × List Tok),
      (∀ p ∈ zs, ReadsP d p.1 p.2) →
      Piece d ((zs.map (·.1)).flatMap fun x => s ++ x)
        ((zs.map (·.2)).flatMap fun x => .punct ',' :: x) := by
    intro s hs zs hz
    rw [List.flatMap_map, List.flatMap_map]
    exact piece_flatMap zs _ _ fun p hp => Piece.lit_then d s [.punct ','] _ _ hs (hz p hp)
  cases xs with
  | nil => exact absurd rfl h0
  | cons x xs =>
    have p1 := (Piece.lit_then d b!"\n    " [] _ _ (by decide) (hx x (by simp))).append
      (hc b!"\n    ," (by decide) xs fun p hp => hx p (by simp [hp]))
    cases ys with
    | nil => simpa [tableItems, commaSep_cons, List.append_assoc] using p1
    | cons y ys =>
      have p2 := (Piece.lit_then d b!"\n\n    ," [.punct ','] _ _ (by decide) (hy y (by simp))).append
        (hc b!"\n    ," (by decide) ys fun p hp => hy p (by simp [hp]))
      simpa [tableItems, commaSep_cons, List.append_assoc] using p1.append p2

theorem listedColumns_eq {d : Dialect} {cur coll : Str} {t : Table} (h : TableText d cur coll t) :
    listedColumns t = liveColumns t := by
  unfold listedColumns liveColumns
  apply List.filter_congr
  intro c hc
  by_cases hi : c.ignore = true
  · simp [hi]
  · have := h.generated c (by simp [liveColumns, hc, hi])
    cases hg : c.isGenerated
    · simp
    · have := this hg; simp [this]

theorem find_toList_filter {α : Type} (p : α → Bool) (xs : List α) (h : (xs.filter p).length ≤ 1) :
    (xs.find? p).toList = xs.filter p := by
  induction xs with
  | nil => rfl
  | cons x r ih =>
    by_cases hp : p x = true
    · simp only [hp, List.filter_cons_of_pos, List.length_cons] at h
      have : r.filter p = [] := List.eq_nil_of_length_eq_zero (by omega)
      simp [hp, this]
    · simp only [Bool.not_eq_true] at hp
      rw [List.find?_cons_of_neg (by simp [hp]), List.filter_cons_of_neg (by simp [hp])]
      rw [List.filter_cons_of_neg (by simp [hp])] at h
      exact ih h

theorem listedConstraints_eq {d : Dialect} {cur coll : Str} {t : Table} (all : Bool)
    (h : TableText d cur coll t) : listedConstraints d t all = tableConstraints d all t := by
  unfold listedConstraints tableConstraints liveConstraints
  rw [List.filter_filter]
  by_cases hs : d = .sqlite
  · simp only [hs, if_true]
    apply List.filter_congr
    intro c _
    have e : (decide (c.constraintType = PRIMARY_KEY ∧ c.columns.length = 1)) =
        (primaryKey c && c.columns.length == 1) := by
      by_cases h1 : c.constraintType = PRIMARY_KEY
      · by_cases h2 : c.columns.length = 1
        · simp [h1, h2, primaryKey]; rfl
        · simp [h2]
      · have : primaryKey c = false := decide_eq_false h1
        simp [h1, this]
    rw [e, Bool.and_comm]
  simp only [hs, if_false]
  cases all with
  | true =>
    simp only [if_true]
    apply List.filter_congr
    intro c _
    rw [Bool.and_comm]
    rfl
  | false =>
    simp only [Bool.false_eq_true, if_false]
    by_cases hm : d = .mysql ∨ d = .sqlserver
    · have hm' : (d = .mysql || d = .sqlserver : Bool) = true := by simpa using hm
      simp only [hm, hm', if_true, Bool.true_and]
      have e : (fun c : Constraint => decide (c.constraintType = PRIMARY_KEY) && !c.ignore) =
          fun c => primaryKey c && !c.ignore := by
        funext c; rfl
      rw [e]
      apply find_toList_filter
      have := h.onePrimary
      unfold liveConstraints at this
      rwa [List.filter_filter] at this
    · have hm' : (d = .mysql || d = .sqlserver : Bool) = false := by simpa using hm
      simp [hm, hm']

/-- C66: CREATE TABLE is read back as the table, with all its columns and constraints. -/
theorem createTable_reads_back (d : Dialect) (cur coll : Str) (all : Bool) (t : Table)
    (h : TableText d cur coll t) :
    IsStmt d cur (createTable d cur coll t all) (createTableOf d cur coll all t) := by
  have hcol : ∀ cs : List Column, (∀ c ∈ cs, c ∈ liveColumns t) →
      ∃ ps : List (Str × List Tok × Item), ps.map (·.1) = cs.map (fun c => columnDef d coll c false) ∧
        ps.map (fun p => p.2.2) = cs.map (fun c => .col (colOf d coll false c)) ∧
        ∀ p ∈ ps, ReadsP d p.1 p.2.1 ∧ flat 0 p.2.1 ∧ readItem d (keywords d) p.2.1 = some p.2.2 := by
    intro cs hcs
    induction cs with
    | nil => exact ⟨[], rfl, rfl, by simp⟩
    | cons c cs ih =>
      obtain ⟨ps, e1, e2, e3⟩ := ih fun x hx => hcs x (by simp [hx])
      have hc := hcs c (by simp)
      obtain ⟨ty, p, ho⟩ := piece_columnBody d coll false c (h.columns c hc)
      refine ⟨(columnDef d coll c false,
        identTok d c.columnName :: (ty ++ colTail d (colOf d coll false c)), .col (colOf d coll false c)) :: ps, by simp [e1],
        by simp [e2], ?_⟩
      intro q hq
      simp only [List.mem_cons] at hq
      rcases hq with rfl | hq
      · exact ⟨(readsP_ident d c.columnName).piece p, flat_col d _ ty ho,
          readItem_col d _ ty ho h.dialect fun e => h.exclude e c hc⟩
      · exact e3 q hq
  have hcon : ∀ cs : List Constraint, (∀ c ∈ cs, c ∈ liveConstraints t) →
      ∃ ps : List (Str × List Tok × Item), ps.map (·.1) = cs.map (constraintDef d cur) ∧
        ps.map (fun p => p.2.2.resolve d cur t.tableSchema) = cs.map (fun c => .con (conOf d cur c)) ∧
        ∀ p ∈ ps, ReadsP d p.1 p.2.1 ∧ flat 0 p.2.1 ∧ readItem d (keywords d) p.2.1 = some p.2.2 := by
    intro cs hcs
    induction cs with
    | nil => exact ⟨[], rfl, rfl, by simp⟩
    | cons c cs ih =>
      obtain ⟨ps, e1, e2, e3⟩ := ih fun x hx => hcs x (by simp [hx])
      obtain ⟨hc, hs⟩ := h.constraints c (hcs c (by simp))
      obtain ⟨p1, p2⟩ := readsP_constraintDef d cur c hc
      have hr := resolve_writtenCon d cur c hc
      rw [hs] at hr
      refine ⟨(constraintDef d cur c, conToks d (writtenCon d cur c),
        .con { writtenCon d cur c with kind := foldKind (writtenCon d cur c).kind }) :: ps,
        by simp [e1], ?_, ?_⟩
      · simp only [List.map_cons, e2]
        exact congrArg (· :: _) (congrArg Item.con hr)
      intro q hq
      simp only [List.mem_cons] at hq
      rcases hq with rfl | hq
      · refine ⟨p1, flat_con d _ p2, readItem_con d _ p2 ?_⟩
        intro m es p hk
        have ht := hc.type
        simp only [List.mem_cons, List.not_mem_nil, or_false] at ht
        rcases ht with e | e | e | e | e
        · simp [writtenCon, kindOf, e] at hk
        · simp [writtenCon, kindOf, e] at hk
        · simp [writtenCon, kindOf, e] at hk
        · simp [writtenCon, kindOf, e] at hk
        · exact (hc.exclude e).postgres
      · exact e3 q hq
  obtain ⟨ps, a1, a2, a3⟩ := hcol (liveColumns t) fun _ => id
  obtain ⟨qs, b1, b2, b3⟩ := hcon (tableConstraints d all t) fun c hc =>
    (List.mem_filter.1 hc).1
  have hp0 : ps ≠ [] := by
    intro e; subst e
    have := h.some
    simp at a1
    exact this a1
  have pi := piece_items d (ps.map fun p => (p.1, p.2.1)) (qs.map fun p => (p.1, p.2.1))
    (by simpa using hp0)
    (by intro p hp; simp only [List.mem_map] at hp; obtain ⟨q, hq, rfl⟩ := hp; exact (a3 _ hq).1)
    (by intro p hp; simp only [List.mem_map] at hp; obtain ⟨q, hq, rfl⟩ := hp; exact (b3 _ hq).1)
  have e1 : (ps.map fun p => (p.1, p.2.1)).map (·.1) =
      (liveColumns t).map fun c => columnDef d coll c false := by rw [← a1]; simp
  have e2 : (qs.map fun p => (p.1, p.2.1)).map (·.1) =
      (tableConstraints d all t).map (constraintDef d cur) := by rw [← b1]; simp
  rw [e1, e2] at pi
  have e3 : ((ps.map fun p => (p.1, p.2.1)) ++ (qs.map fun p => (p.1, p.2.1))).map (·.2) =
      ((ps ++ qs).map (·.2)).map (·.1) := by simp [Function.comp_def]
  rw [e3] at pi
  have hx : ∀ x ∈ (ps ++ qs).map (·.2), flat 0 x.1 ∧ readItem d (keywords d) x.1 = some x.2 := by
    intro x hx
    simp only [List.map_append, List.mem_append, List.mem_map] at hx
    rcases hx with ⟨p, hp, rfl⟩ | ⟨p, hp, rfl⟩
    · exact (a3 p hp).2
    · exact (b3 p hp).2
  have hst := readStmt_createTable d (tableName cur t.tableSchema t.tableName)
    (tableName_plain d cur _ _ h.schema) h.name ((ps ++ qs).map (·.2)) (by simp [hp0]) hx
  have p1 := (reads_lit d b!"CREATE TABLE " (by decide) (by decide)).append
    ((readsP_qualified d cur t.tableSchema t.tableName).lit (t := b!" (") (us := [.punct '('])
      (by decide))
  have p2 := p1.append_p (pi.append (Piece.lit d b!"\n)" [.punct ')'] (by decide))).reads
  have e4 : createTable d cur coll t all = (b!"CREATE TABLE " ++
      (qualified d cur t.tableSchema t.tableName ++ b!" (") ++
      (tableItems ((liveColumns t).map fun c => columnDef d coll c false)
      ((tableConstraints d all t).map (constraintDef d cur)) ++ b!"\n)")) ++ b!";\n" := by
    unfold createTable
    rw [if_neg (by simp [h.sql]), listedColumns_eq h, listedConstraints_eq all h]
    simp [List.append_assoc]
  rw [e4]
  have e5 : stoks b!"CREATE TABLE " = [.word b!"CREATE", .word b!"TABLE"] := by decide
  rw [e5] at p2
  simp only [List.append_assoc, List.cons_append, List.nil_append] at p2
  refine isStmt_of (ts := .word b!"CREATE" :: .word b!"TABLE" :: (qnameToks d
    (tableName cur t.tableSchema t.tableName) ++ .punct '(' ::
    (commaSep (((ps ++ qs).map (·.2)).map (·.1)) ++ [.punct ')']))) _ ?_ ?_ gap_semi ?_
  · simp only [List.append_assoc]; exact p2
  · apply bal_append0 [.word b!"CREATE", .word b!"TABLE"] _ (by rfl)
    apply bal_append0 _ _ (flat_bal _ _ (flat_qname d _))
    apply flat_bal
    rw [flat_brackets _ _ (bal_commaSep _ ?_)]
    · rfl
    · intro y hy
      simp only [List.mem_map] at hy
      obtain ⟨x, ⟨z, hz, rfl⟩, rfl⟩ := hy
      exact (hx z.2 (List.mem_map_of_mem hz)).1
  · rw [hst]
    simp only [Option.map_some, Stmt.resolve, full_tableName, createTableOf, Option.some.injEq,
      Stmt.createTable.injEq, true_and]
    rw [List.map_append, List.map_append, List.map_append, List.map_map, List.map_map, List.map_map,
      List.map_map]
    congr 1
    · rw [← a2]
      apply List.map_congr_left
      intro p hp
      have : p.2.2 ∈ ps.map (fun p => p.2.2) := List.mem_map_of_mem hp
      rw [a2] at this
      simp only [List.mem_map] at this
      obtain ⟨c, _, hc⟩ := this
      simp only [Function.comp, ← hc, Item.resolve]
    · rw [← b2]
      apply List.map_congr_left
      intro p _
      simp only [Function.comp]
      cases p.2.2 with
      | col c => rfl
      | con c => simp [Item.resolve, con_owner]

/-- C66: CREATE INDEX is read back as the index. -/
theorem createIndex_reads_back (d : Dialect) (cur : Str) (conc : Bool) (x : Index) (h0 : x.sql = [])
    (h : IndexOk d false x) :
    IsStmt d cur (createIndex d cur x conc) (createIndexOf d cur conc x) := by
  obtain ⟨p, ok⟩ := readsP_indexDef d cur conc false x h
  have e : createIndex d cur x conc = (b!"CREATE " ++ indexDef d cur x conc false) ++ b!";\n" := by
    unfold createIndex
    rw [if_neg (by simp [h0])]
  rw [e]
  have p1 := (reads_lit d b!"CREATE " (by decide) (by decide)).append_p p
  refine isStmt_of _ p1 ?_ gap_semi ?_
  · apply bal_append0 _ _ (by decide)
    apply bal_idx d _ _ ok
    unfold writtenIdx idxOf
    simp only
    split
    · rfl
    · exact h.pred.2
  · have e2 : stoks b!"CREATE " = [.word b!"CREATE"] := by decide
    have := readStmt_createIndex d _ _ ok _ rfl
    rw [e2, List.cons_append, List.nil_append, this, fold_writtenIdx]
    rfl

end Sqddl.Render
