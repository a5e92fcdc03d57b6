import Verif.Props.PgColumns
import Verif.Props.PgSample

/-!
# Changes of columns on Postgres: a sample, and what goes wrong (C41)
-/

namespace PgSpec
open SqlSpec Sqddl DdlText PgText EngineSpec Sqddl.Postgres
open PgText (Act Stmt)

/-! ## A sample -/

namespace Account

def col (n ty : Str) (nn : Bool := false) : Column :=
  { tableSchema := b!"bank", tableName := b!"account", columnName := n, columnType := ty,
    isNotNull := nn }

def pkey : Constraint :=
  { tableSchema := b!"bank", tableName := b!"account", constraintName := b!"account_pkey",
    constraintType := b!"PRIMARY KEY", columns := [b!"id"] }

/-- A table of accounts. -/
def srcTable : Table :=
  { tableSchema := b!"bank", tableName := b!"account"
    columns := [col b!"id" b!"integer" true,
      { col b!"owner" b!"character varying(50)" with
        columnDefault := b!"'nobody'::character varying" },
      { col b!"balance" b!"integer" true with columnDefault := b!"0" },
      { col b!"note" b!"text" with collationName := b!"POSIX" },
      col b!"opened" b!"timestamp without time zone",
      { col b!"twice" b!"integer" with
        isGenerated := true, generatedExpr := b!"id * 2", generatedExprStored := true }]
    constraints := [pkey] }

/-- Numbers are given out by the database, owners are required, balances are larger and may be
missing, notes have another collation; the type of `opened` is only spelled differently. -/
def destTable : Table :=
  { tableSchema := b!"bank", tableName := b!"account"
    columns := [{ col b!"id" b!"integer" true with
        columnIdentity := b!"GENERATED ALWAYS AS IDENTITY" },
      { col b!"owner" b!"VARCHAR(100)" true with columnDefault := b!"'?'" },
      col b!"balance" b!"BIGINT",
      { col b!"note" b!"TEXT" with collationName := b!"C.utf8" },
      { col b!"opened" b!"TIMESTAMP" true with columnDefault := b!"NOW()" },
      { col b!"twice" b!"INT" with
        isGenerated := true, generatedExpr := b!"id * 2", generatedExprStored := true }]
    constraints := [pkey] }

def src : Catalog :=
  { dialect := b!"postgres", currentSchema := b!"bank", defaultCollation := b!"C",
    versionNums := [14, 2], schemas := [{ schemaName := b!"bank", tables := [srcTable] }] }

def dest : Catalog :=
  { dialect := b!"postgres", currentSchema := b!"bank"
    schemas := [{ schemaName := b!"bank", tables := [destTable] }] }

def env : Env := ⟨[14, 2], b!"bank", b!"C", fun _ => false⟩

def de : DiffEnv := diffEnv src dest true

theorem alterColumns_eq : (pgAlterTable de srcTable destTable).alterColumns =
    [(srcTable.columns[0], destTable.columns[0]), (srcTable.columns[1], destTable.columns[1]),
     (srcTable.columns[2], destTable.columns[2]), (srcTable.columns[3], destTable.columns[3]),
     (srcTable.columns[4], destTable.columns[4])] := by decide +kernel

theorem onlyColumns : OnlyColumns (pgAlterTable de srcTable destTable) := by
  constructor <;> decide +kernel

theorem alterText : AlterText env (pgAlterTable de srcTable destTable) := by decide +kernel

/-- The acts of the migration. -/
example : (Postgres.alterOf env (pgAlterTable de srcTable destTable)).map Shop.show' =
    [b!"account: identity of id", b!"account: type of owner", b!"account: default of owner",
     b!"account: add constraint account_owner_not_null_check",
     b!"account: type of balance", b!"account: no default of balance", b!"account: null balance",
     b!"account: type of note", b!"account: default of opened",
     b!"account: add constraint account_opened_not_null_check",
     b!"account: validate account_owner_not_null_check", b!"account: not null owner",
     b!"account: drop constraint account_owner_not_null_check",
     b!"account: validate account_opened_not_null_check", b!"account: not null opened",
     b!"account: drop constraint account_opened_not_null_check"] := by decide +kernel

theorem castOk {s x : Str} (h1 : (splitCast (Go.trimSpace s)).1 = x)
    (h2 : (match (splitCast (Go.trimSpace s)).2 with | none => true | some ty => castType ty) = true)
    (h3 : x ≠ []) (h4 : Go.trimSpace x = x) : CastOk s := by
  refine Or.inr ⟨x, ⟨h1, ?_⟩, h3, h4⟩
  intro ty h
  rw [h] at h2
  exact h2

theorem uncast {s x : Str} (h1 : (splitCast (Go.trimSpace s)).1 = x)
    (h2 : (match (splitCast (Go.trimSpace s)).2 with | none => true | some ty => castType ty) = true) :
    Uncast s x := by
  refine ⟨h1, ?_⟩
  intro ty h
  rw [h] at h2
  exact h2

theorem alterations : Alterations env.coll (lowerThan env.version [12]) destTable.tableName
    (tblOf env.cur env.coll srcTable) (pgAlterTable de srcTable destTable).alterColumns := by
  have hpk : ∀ m d cs, (tblOf env.cur env.coll srcTable).con m = some d → d.kind = .primary cs →
      cs = [b!"id"] := by
    intro m d cs hd hk
    simp only [tblOf, Option.map_eq_some_iff] at hd
    obtain ⟨c, hc, rfl⟩ := hd
    have hm := (List.mem_filter.1 (List.mem_of_find?_eq_some hc)).1
    rcases List.mem_cons.1 hm with rfl | h
    · have e1 : (conOf .postgres env.cur pkey).kind = .primary [b!"id"] := by decide +kernel
      rw [e1] at hk
      injection hk with hk
      exact hk.symm
    · cases h
  have hgen : ∀ n ∈ [b!"owner", b!"balance", b!"note", b!"opened"],
      ∀ c ∈ srcTable.columns, generatedFrom n (colOf .postgres env.coll false c) = false := by
    decide +kernel
  have hgen' : ∀ n ∈ [b!"owner", b!"balance", b!"note", b!"opened"],
      ∀ m d, (tblOf env.cur env.coll srcTable).col m = some d → generatedFrom n d = false := by
    intro n hn m d hd
    simp only [tblOf, Option.map_eq_some_iff] at hd
    obtain ⟨c, hc, rfl⟩ := hd
    have := List.mem_of_find?_eq_some hc
    exact hgen n hn c (List.mem_filter.1 this).1
  rw [alterColumns_eq]
  constructor
  · decide +kernel
  · intro p hp
    simp only [List.mem_cons, List.not_mem_nil, or_false] at hp
    rcases hp with rfl | rfl | rfl | rfl | rfl
    all_goals constructor <;> first | decide +kernel | skip
    · exact ⟨Or.inl (by decide +kernel), Or.inl (by decide +kernel)⟩
    · exact Or.inl (by decide +kernel)
    · exact ⟨castOk (x := b!"'nobody'") (by decide +kernel) (by decide +kernel) (by decide) (by decide +kernel),
        castOk (x := b!"'?'") (by decide +kernel) (by decide +kernel) (by decide) (by decide +kernel)⟩
    · refine Or.inr (Or.inr (Or.inr ⟨b!"'nobody'", b!"'?'", uncast (by decide +kernel) (by decide +kernel),
        uncast (by decide +kernel) (by decide +kernel), ?_, ?_⟩)) <;> left <;> decide +kernel
    · exact ⟨castOk (x := b!"0") (by decide +kernel) (by decide +kernel) (by decide) (by decide +kernel),
        Or.inl (by decide +kernel)⟩
    · exact Or.inr (Or.inl (by decide +kernel))
    · exact ⟨Or.inl (by decide +kernel), Or.inl (by decide +kernel)⟩
    · exact Or.inl (by decide +kernel)
    · exact ⟨Or.inl (by decide +kernel), castOk (x := b!"NOW()") (by decide +kernel) (by decide +kernel)
        (by decide) (by decide +kernel)⟩
    · exact Or.inl (by decide +kernel)
  · decide +kernel
  · decide +kernel
  · intro p hp h1
    simp only [List.mem_cons, List.not_mem_nil, or_false] at hp
    rcases hp with rfl | rfl | rfl | rfl | rfl
    · exact absurd h1 (by decide +kernel)
    · exact hgen' _ (by decide +kernel)
    · exact hgen' _ (by decide +kernel)
    · exact hgen' _ (by decide +kernel)
    · exact hgen' _ (by decide +kernel)
  · intro p hp h1 h2 m d cs hd hk
    rw [hpk m d cs hd hk]
    simp only [List.mem_cons, List.not_mem_nil, or_false] at hp
    rcases hp with rfl | rfl | rfl | rfl | rfl <;>
      first | decide +kernel | exact absurd h2 (by decide +kernel)
  · decide +kernel

/-- The hypotheses of `pg_alter_columns_partial` are met. -/
example : ∃ sts t',
    StepsRead env.cur (alterTableSteps env (pgAlterTable de srcTable destTable)) sts ∧
    Runs (dbOf env.cur env.coll src) sts { dbOf env.cur env.coll src with
      table := put (dbOf env.cur env.coll src).table (b!"bank", b!"account") (some t') } ∧
    (∃ c, t'.col b!"owner" = some c ∧
      ColumnReached env.coll srcTable.columns[1] destTable.columns[1] c) ∧
    t'.col b!"twice" = (tblOf env.cur env.coll srcTable).col b!"twice" := by
  have hk : key (fullName env.cur destTable.tableSchema destTable.tableName) =
      (b!"bank", b!"account") := by decide +kernel
  have ht : (dbOf env.cur env.coll src).table (b!"bank", b!"account") =
      some (tblOf env.cur env.coll srcTable) := by
    have : (CatalogSpec.liveTables src).find?
        (fun t => (t.tableSchema, t.tableName) == (b!"bank", b!"account")) = some srcTable := by
      decide +kernel
    simp only [dbOf, this, Option.map_some]
  obtain ⟨sts, t', h1, h2, _, _, h3, h4⟩ := pg_alter_columns_partial env de srcTable destTable
    (dbOf env.cur env.coll src) (tblOf env.cur env.coll srcTable) rfl onlyColumns alterText
    (by rw [hk]; exact ht) alterations
  rw [hk] at h2
  rw [alterColumns_eq] at h3 h4
  refine ⟨sts, t', h1, h2, ?_, ?_⟩
  · exact h3 (srcTable.columns[1], destTable.columns[1]) (by simp)
  · exact h4 _ (by decide +kernel)

/-- A column in several versions. -/
def plain : Column := col b!"n" b!"TEXT"
def serial : Column :=
  { col b!"n" b!"TEXT" true with columnIdentity := b!"GENERATED ALWAYS AS IDENTITY" }
def zero : Column := { col b!"n" b!"TEXT" true with columnDefault := b!"0" }
def random : Column := { col b!"n" b!"TEXT" true with columnDefault := b!"floor(random() * 9)" }
def posix : Column := { col b!"n" b!"TEXT" with collationName := b!"POSIX" }

end Account

/-! ## What goes wrong -/

theorem steps_of_runs {db db' : Db} {nm : DdlText.Name} {t : Tbl} {as : List Act}
    (ht : db.table (key nm) = some t)
    (h : Runs db (as.map fun a => .alter nm [a]) db') : ∃ t', Steps db (key nm) t as t' := by
  suffices H : ∀ t, Runs (db.withTable (key nm) t) (as.map fun a => .alter nm [a]) db' →
      ∃ t', Steps db (key nm) t as t' by
    apply H
    rwa [withTable_eq ht]
  clear h ht t
  induction as with
  | nil => intro t _; exact ⟨t, rfl⟩
  | cons a r ih =>
    intro t h
    obtain ⟨⟨⟨u, hu, h1⟩, _⟩, h2⟩ := h
    rw [withTable_self] at hu
    injection hu with hu
    subst hu
    have h3 : Runs (onTable (db.withTable (key nm) t) (key nm) a)
      (r.map fun a => .alter nm [a]) db' := h2
    rw [onTable_withTable] at h3
    obtain ⟨t', h4⟩ := ih _ h3
    exact ⟨t', h1, h4⟩

/-- C41 fails: a default that is replaced by one that is not a constant stays what it was: no
statement is generated, although the columns are found to be different. -/
theorem pg_default_change_refuted (e : Env) (a b : Column)
    (ht : a.columnType = b.columnType) (hc : a.collationName = b.collationName)
    (hn : a.isNotNull = b.isNotNull) (hi : a.columnIdentity = b.columnIdentity)
    (hd : normalizeColumnDefault .postgres a.columnDefault ≠
      normalizeColumnDefault .postgres b.columnDefault)
    (ha : normalizeColumnDefault .postgres a.columnDefault ≠ [])
    (hb : normalizeColumnDefault .postgres b.columnDefault ≠ [])
    (hl : isLiteral e.isFloat (normalizeColumnDefault .postgres b.columnDefault) = false) :
    columnsAreDifferent .postgres e.coll a b = true ∧ columnActs e (a, b) = [] := by
  constructor
  · unfold columnsAreDifferent
    simp [hd]
  · unfold columnActs typeActs defaultActs notNullActs identityActs
    simp only [ht, hc, hn, hi, hl]
    cases b.isNotNull <;> simp [ha, hb]

/-- The default `0` is replaced by `floor(random() * 9)`. -/
example : columnActs Account.env (Account.zero, Account.random) = [] :=
  (pg_default_change_refuted Account.env Account.zero Account.random rfl rfl rfl rfl
    (by decide) (by decide) (by decide) (by decide)).2

/-- C41 fails: of a default that a column gets, only the text before the first `::` is set. -/
theorem pg_default_cut_refuted : ∃ (e : Env) (a b : Column), a.columnDefault = [] ∧
    columnActs e (a, b) = [.setDefault b.columnName [.str b!"a"]] ∧
    b.columnDefault = b!"'a'::text || 'b'" ∧
    ¬ DefaultIs b.columnDefault (some [.str b!"a"]) := by
  refine ⟨Account.env, Account.col b!"n" b!"TEXT",
    { Account.col b!"n" b!"TEXT" with columnDefault := b!"'a'::text || 'b'" }, rfl, by decide +kernel,
    rfl, ?_⟩
  rintro ⟨x, _, y, z, _, h, _⟩
  have h1 := h.2 b!"text || 'b'" (by decide +kernel)
  have h2 : castType b!"text || 'b'" = false := by decide +kernel
  rw [h2] at h1
  cases h1

/-- C41 fails: a nullable column cannot become an identity column on Postgres 12 or later: the
constraint that stands for NOT NULL comes first, and the server refuses the identity because the
column is not NOT NULL yet. -/
theorem pg_identity_nullable_refuted (e : Env) (a b : Column) (hv : lowerThan e.version [12] = false)
    (ht : a.columnType = b.columnType) (hc : a.collationName = b.collationName)
    (hd : a.columnDefault = b.columnDefault) (ha : a.isNotNull = false) (hb : b.isNotNull = true)
    (hi : a.columnIdentity = []) (hj : b.columnIdentity ≠ [])
    (db : Db) (s n : Str) (t : Tbl) (h0 : db.table (key (fullName e.cur s n)) = some t)
    (h1 : t.col b.columnName = some (colOf .postgres e.coll false a)) :
    ¬ ∃ db', Runs db ((columnActs e (a, b)).map (alterOne e.cur s n)) db' := by
  rintro ⟨db', h⟩
  have e1 : columnActs e (a, b) = [.addConstraint (notNullCon (checkName b) b.columnName),
      .addIdentity b.columnName (toks .postgres b.columnIdentity)] := by
    unfold columnActs typeActs defaultActs notNullActs identityActs
    simp [ht, hc, hd, ha, hb, hi, hj, hv]
  rw [e1] at h
  obtain ⟨t', _, h2, _⟩ := steps_of_runs h0 h
  obtain ⟨c, c', h3, h4⟩ := h2
  have h5 : (eff t (.addConstraint (notNullCon (checkName b) b.columnName))).col = t.col := rfl
  rw [h5, h1] at h3
  injection h3 with h3
  subst h3
  have h6 : (colOf .postgres e.coll false a).notNull = false := by simp [colOf, ha]
  simp [colAct, h6] at h4

example (db : Db) (t : Tbl) (h0 : db.table (b!"bank", b!"account") = some t)
    (h1 : t.col b!"n" = some (colOf .postgres b!"C" false Account.plain)) :
    ¬ ∃ db', Runs db ((columnActs Account.env (Account.plain, Account.serial)).map
      (alterOne b!"bank" b!"bank" b!"account")) db' :=
  pg_identity_nullable_refuted Account.env Account.plain Account.serial (by decide) rfl rfl rfl rfl rfl rfl (by decide) db
    b!"bank" b!"account" t h0 h1

/-- C41 fails: a column that is no identity column any more cannot get a default, because the default
is set first and the server refuses that for an identity column. -/
theorem pg_identity_default_refuted (e : Env) (a b : Column)
    (ht : a.columnType = b.columnType) (hc : a.collationName = b.collationName)
    (hd : a.columnDefault = []) (hx : normalizeColumnDefault .postgres b.columnDefault ≠ [])
    (hi : a.columnIdentity ≠ [])
    (db : Db) (s n : Str) (t : Tbl) (h0 : db.table (key (fullName e.cur s n)) = some t)
    (h1 : t.col b.columnName = some (colOf .postgres e.coll false a)) :
    ¬ ∃ db', Runs db ((columnActs e (a, b)).map (alterOne e.cur s n)) db' := by
  rintro ⟨db', h⟩
  have e0 : normalizeColumnDefault .postgres [] = [] := by decide
  have e1 : columnActs e (a, b) = .setDefault b.columnName
      (toks .postgres (normalizeColumnDefault .postgres b.columnDefault)) ::
      (notNullActs e a b ++ identityActs a b) := by
    unfold columnActs typeActs defaultActs
    simp [ht, hc, hd, hx, e0]
  rw [e1] at h
  obtain ⟨t', h2, _⟩ := steps_of_runs h0 h
  obtain ⟨c, c', h3, h4⟩ := h2
  rw [h1] at h3
  injection h3 with h3
  subst h3
  have h6 : (colOf .postgres e.coll false a).identity.isSome = true := by
    rw [colOf_identity, if_neg hi]; rfl
  simp [colAct, h6] at h4

example (db : Db) (t : Tbl) (h0 : db.table (b!"bank", b!"account") = some t)
    (h1 : t.col b!"n" = some (colOf .postgres b!"C" false Account.serial)) :
    ¬ ∃ db', Runs db ((columnActs Account.env (Account.serial, Account.zero)).map
      (alterOne b!"bank" b!"bank" b!"account")) db' :=
  pg_identity_default_refuted Account.env Account.serial Account.zero rfl rfl rfl (by decide) (by decide) db
    b!"bank" b!"account" t h0 h1

/-- C41 fails: a column that is no identity column any more cannot become nullable, because NOT NULL
is dropped first. -/
theorem pg_identity_null_refuted (e : Env) (a b : Column)
    (ht : a.columnType = b.columnType) (hc : a.collationName = b.collationName)
    (hd : a.columnDefault = b.columnDefault) (ha : a.isNotNull = true) (hb : b.isNotNull = false)
    (hi : a.columnIdentity ≠ [])
    (db : Db) (s n : Str) (t : Tbl) (h0 : db.table (key (fullName e.cur s n)) = some t)
    (h1 : t.col b.columnName = some (colOf .postgres e.coll false a)) :
    ¬ ∃ db', Runs db ((columnActs e (a, b)).map (alterOne e.cur s n)) db' := by
  rintro ⟨db', h⟩
  have e1 : columnActs e (a, b) = .dropNotNull b.columnName :: identityActs a b := by
    unfold columnActs typeActs defaultActs notNullActs
    simp [ht, hc, hd, ha, hb]
  rw [e1] at h
  obtain ⟨t', h2, _⟩ := steps_of_runs h0 h
  obtain ⟨⟨c, c', h3, h4⟩, _⟩ := h2
  rw [h1] at h3
  injection h3 with h3
  subst h3
  have h6 : (colOf .postgres e.coll false a).identity.isSome = true := by
    rw [colOf_identity, if_neg hi]; rfl
  simp [colAct, h6] at h4

example (db : Db) (t : Tbl) (h0 : db.table (b!"bank", b!"account") = some t)
    (h1 : t.col b!"n" = some (colOf .postgres b!"C" false Account.serial)) :
    ¬ ∃ db', Runs db ((columnActs Account.env (Account.serial, Account.plain)).map
      (alterOne b!"bank" b!"bank" b!"account")) db' :=
  pg_identity_null_refuted Account.env Account.serial Account.plain rfl rfl rfl rfl rfl (by decide) db
    b!"bank" b!"account" t h0 h1

/-- C41 fails: a collation is not removed; `COLLATE ""` is refused. -/
theorem pg_collation_removed_refuted (e : Env) (a b : Column)
    (ht : a.columnType = b.columnType) (ha : a.collationName ≠ []) (hne : a.collationName ≠ e.coll)
    (hb : b.collationName = [])
    (db : Db) (s n : Str) (t : Tbl) (h0 : db.table (key (fullName e.cur s n)) = some t) :
    ¬ ∃ db', Runs db ((columnActs e (a, b)).map (alterOne e.cur s n)) db' := by
  rintro ⟨db', h⟩
  have e1 : columnActs e (a, b) = .setType b.columnName ((toks .postgres b.columnType).map foldTok)
      (some (.quoted [])) :: (defaultActs e a b ++ notNullActs e a b ++ identityActs a b) := by
    unfold columnActs typeActs collationOr
    simp [ht, ha, hb, hne]
  rw [e1] at h
  obtain ⟨t', h2, _⟩ := steps_of_runs h0 h
  obtain ⟨⟨c, c', h3, h4⟩, _⟩ := h2
  simp [colAct] at h4

example (db : Db) (t : Tbl) (h0 : db.table (b!"bank", b!"account") = some t) :
    ¬ ∃ db', Runs db ((columnActs Account.env (Account.posix, Account.plain)).map
      (alterOne b!"bank" b!"bank" b!"account")) db' :=
  pg_collation_removed_refuted Account.env Account.posix Account.plain rfl (by decide) (by decide) rfl db
    b!"bank" b!"account" t h0

/-- C37, C41 fail: a change of the deferrability of a primary key or a unique constraint is refused;
only foreign keys can be altered. -/
theorem pg_alter_key_refuted (db : Db) (nm : DdlText.Name) (t : Tbl) (n : Str) (d i : Bool) (c : Con)
    (h0 : db.table (key nm) = some t) (h1 : t.con n = some c)
    (h2 : (∃ cs, c.kind = .primary cs) ∨ ∃ cs, c.kind = .unique cs) :
    ¬ Accepts db (.alter nm [.alterConstraint n d i]) := by
  rintro ⟨⟨u, h3, ⟨c', cs, ref, h4, h5⟩, _⟩, _⟩
  rw [h0] at h3
  injection h3 with h3
  subst h3
  rw [h1] at h4
  injection h4 with h4
  subst h4
  rcases h2 with ⟨cs', h2⟩ | ⟨cs', h2⟩ <;> rw [h2] at h5 <;> cases h5

example : ¬ Accepts (dbOf Account.env.cur Account.env.coll Account.src)
    (.alter (some b!"bank", b!"account") [.alterConstraint b!"account_pkey" true true]) := by
  have h1 : (CatalogSpec.liveTables Account.src).find?
      (fun t => (t.tableSchema, t.tableName) == (b!"bank", b!"account")) = some Account.srcTable := by
    decide +kernel
  have h2 : (CatalogSpec.liveConstraints Account.srcTable).find?
      (fun c => c.constraintName == b!"account_pkey") = some Account.pkey := by decide +kernel
  refine pg_alter_key_refuted _ _ (tblOf Account.env.cur Account.env.coll Account.srcTable) _ _ _
    (conOf .postgres Account.env.cur Account.pkey) ?_ ?_ (Or.inl ⟨[b!"id"], by decide +kernel⟩)
  · show ((CatalogSpec.liveTables Account.src).find?
      (fun t => (t.tableSchema, t.tableName) == (b!"bank", b!"account"))).map _ = _
    rw [h1]; rfl
  · show ((CatalogSpec.liveConstraints Account.srcTable).find?
      (fun c => c.constraintName == b!"account_pkey")).map _ = _
    rw [h2]; rfl

end PgSpec
