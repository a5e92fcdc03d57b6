import Verif.Lemmas.CsvValues
import Verif.Props.Csv

/-!
# Values dumped to CSV and loaded again (C47)
-/

namespace CsvSpec
open Sqddl.DumpCsv

/-- `dump` and `load` are told the same null string and binary prefix, which have no Windows line
ends, and `load` uses them. -/
structure SameSettings (o : DumpOpts) (l : LoadOpts) : Prop where
  nullstring : l.nullstring = o.nullstring
  binaryprefix : l.binaryprefix = o.binaryprefix
  useNull : l.noNullstring = false
  useBinary : l.noBinaryprefix = false
  unixNull : UnixText o.nullstring
  unixPrefix : UnixText o.binaryprefix

end CsvSpec

namespace Sqddl.DumpCsv
open Go CsvSpec

theorem run_prefix_ne (o : DumpOpts) : o.run.binaryprefix ≠ [] := by
  unfold DumpOpts.run
  dsimp only
  split
  · simp
  · assumption

theorem run_same {o : DumpOpts} {l : LoadOpts} (h : SameSettings o l) :
    l.run.nullstring = o.run.nullstring ∧ l.run.binaryprefix = o.run.binaryprefix ∧
    l.run.noNullstring = false ∧ l.run.noBinaryprefix = false ∧ UnixText o.run.nullstring ∧
    UnixText o.run.binaryprefix := by
  refine ⟨by simp [LoadOpts.run, DumpOpts.run, h.nullstring],
    by simp [LoadOpts.run, DumpOpts.run, h.binaryprefix], h.useNull, h.useBinary, ?_, ?_⟩
  · unfold DumpOpts.run
    dsimp only
    split
    · exact unix_of_not_cr (by decide)
    · exact h.unixNull
  · unfold DumpOpts.run
    dsimp only
    split
    · exact unix_of_not_cr (by decide)
    · exact h.unixPrefix

/-- the null string is loaded as NULL -/
theorem load_null {d : Dialect} {l : LoadOpts} {unix : Str → Option Int} {ty f : Str}
    (h : l.noNullstring = false) (hf : f = l.nullstring) : loadField d l unix ty f = some .null := by
  unfold loadField
  rw [if_pos (by simp [h, hf])]

/-- text is loaded as it is -/
theorem load_text {d : Dialect} {l : LoadOpts} {unix : Str → Option Int} {ty f : Str}
    (hf : f ≠ l.nullstring)
    (hb : binaryTypes.contains ty = false ∨ hasPrefix f l.binaryprefix = false)
    (ha : hasSuffix ty b!"[]" = true → f.getLast? ≠ some ']') (hd : d ≠ .sqlite) :
    loadField d l unix ty f = some (.str f) := by
  unfold loadField
  rw [if_neg (by simp [hf]), if_neg (by rcases hb with hb | hb <;> simp only [hb, Bool.and_false, Bool.false_and] <;> simp),
    if_neg (fun h => ha h.2.1 h.2.2.2.2), if_neg (fun h => hd h.1)]

/-- a binary literal is loaded as bytes -/
theorem load_binary {d : Dialect} {l : LoadOpts} {unix : Str → Option Int} {ty x : Str}
    (hf : l.binaryprefix ++ x ≠ l.nullstring) (hb : binaryTypes.contains ty = true)
    (hn : l.noBinaryprefix = false) (hp : l.binaryprefix ≠ []) :
    loadField d l unix ty (l.binaryprefix ++ x) = (hexDecode x).bind fun b =>
      if d = .postgres ∧ ty = b!"UUID" then (if b.length = 16 then some (.str (uuidText b)) else none)
      else some (.bytes b) := by
  have h1 : hasPrefix (l.binaryprefix ++ x) l.binaryprefix = true := by
    simp [hasPrefix]
  unfold loadField
  rw [if_neg (by simp [hf]), if_pos (by rw [hb, hn, h1]; simp [hp]), loadBinary, trimPrefix, if_pos h1,
    List.drop_left]

theorem arrayDest_suffix {ty : Str} {x : Dest} (h : arrayDest ty = some x) : hasSuffix ty b!"[]" = true := by
  unfold arrayDest at h
  split at h
  · rename_i h1; rw [h1]; decide
  · split at h
    · rename_i h1; revert h1; simp only [List.mem_cons, List.not_mem_nil, or_false]
      rintro (rfl | rfl | rfl | rfl) <;> decide
    · split at h
      · rename_i h1; revert h1; simp only [List.mem_cons, List.not_mem_nil, or_false]
        rintro (rfl | rfl | rfl) <;> decide
      · split at h
        · rename_i h1; revert h1; simp only [List.mem_cons, List.not_mem_nil, or_false]
          rintro (rfl | rfl | rfl) <;> decide
        · simp at h

theorem dest_scalar {d : Dialect} {o : DumpOpts} {ty : Str} (hd : d ≠ .sqlite)
    (h : o.arrayAsJSON = false ∨ hasSuffix ty b!"[]" = false) : dest d o ty = scalarDest ty := by
  unfold dest
  rw [if_neg hd]
  split
  · rename_i h1
    rcases h with h | h
    · rw [h] at h1; simp at h1
    · cases ha : arrayDest ty with
      | none => rfl
      | some x => rw [arrayDest_suffix ha] at h; simp at h
  · rfl

/-- what the code does with the types of a kind -/
structure Facts (n : Str) (x : Dest) (bin : Bool) : Prop where
  dest : scalarDest n = x
  binary : binaryTypes.contains n = bin
  unsigned : binaryTypes.contains (n ++ b!" UNSIGNED") = false

theorem facts_int : ∀ n ∈ [b!"TINYINT", b!"SMALLINT", b!"MEDIUMINT", b!"INT", b!"BIGINT"],
    scalarDest n = .int ∧ binaryTypes.contains n = false ∧ hasSuffix n b!"[]" = false := by decide

theorem facts_time : ∀ n ∈ [b!"TIMESTAMP", b!"TIMESTAMPTZ", b!"DATETIME", b!"DATETIME2", b!"SMALLDATETIME"],
    scalarDest n = .time ∧ binaryTypes.contains n = false ∧ hasSuffix n b!"[]" = false := by decide

theorem facts_bytes : ∀ n ∈ [b!"BYTEA", b!"BINARY", b!"VARBINARY", b!"TINYBLOB", b!"BLOB", b!"MEDIUMBLOB",
      b!"LONGBLOB"],
    scalarDest n = .bytes ∧ binaryTypes.contains n = true ∧ hasSuffix n b!"[]" = false ∧ n ≠ b!"UUID" := by
  decide

theorem facts_float : ∀ n ∈ [b!"REAL", b!"DOUBLE PRECISION", b!"FLOAT", b!"DOUBLE"],
    (scalarDest n = .float ∨ scalarDest n = .str) ∧ binaryTypes.contains n = false ∧
    hasSuffix n b!"[]" = false ∧
    n ∉ [b!"BINARY", b!"VARBINARY", b!"TINYBLOB", b!"BLOB", b!"MEDIUMBLOB", b!"LONGBLOB"] ∧
    n ≠ b!"UUID" := by decide

theorem facts_text : ∀ n ∈ [b!"TINYTEXT", b!"TEXT", b!"MEDIUMTEXT", b!"LONGTEXT", b!"CHAR", b!"VARCHAR",
      b!"NCHAR", b!"NVARCHAR", b!"JSON"],
    scalarDest n = .str ∧ binaryTypes.contains n = false ∧ hasSuffix n b!"[]" = false ∧
    n ∉ [b!"BINARY", b!"VARBINARY", b!"TINYBLOB", b!"BLOB", b!"MEDIUMBLOB", b!"LONGBLOB"] ∧
    n ≠ b!"UUID" := by decide

theorem kind_int {d n} (h : kind d n = some .int) :
    n ∈ [b!"TINYINT", b!"SMALLINT", b!"MEDIUMINT", b!"INT", b!"BIGINT"] := by
  unfold kind at h
  grind

theorem kind_bool {d n} (h : kind d n = some .bool) : n = b!"BOOLEAN" ∨ n = b!"BIT" := by
  unfold kind at h
  grind

theorem kind_float {d n} (h : kind d n = some .float) :
    n ∈ [b!"REAL", b!"DOUBLE PRECISION", b!"FLOAT", b!"DOUBLE"] := by
  unfold kind at h
  grind

theorem kind_decimal {d n} (h : kind d n = some .decimal) : n = b!"NUMERIC" := by
  unfold kind at h
  grind

theorem kind_bytes {d n} (h : kind d n = some .bytes) :
    n ∈ [b!"BYTEA", b!"BINARY", b!"VARBINARY", b!"TINYBLOB", b!"BLOB", b!"MEDIUMBLOB", b!"LONGBLOB"] := by
  unfold kind at h
  grind

theorem kind_timestamp {d n} (h : kind d n = some .timestamp) :
    n ∈ [b!"TIMESTAMP", b!"TIMESTAMPTZ", b!"DATETIME", b!"DATETIME2", b!"SMALLDATETIME"] := by
  unfold kind at h
  grind

theorem kind_date {d n} (h : kind d n = some .date) : n = b!"DATE" := by
  unfold kind at h
  grind

/-- `kind` branch by branch -/
theorem kind_late {d n k} (h : kind d n = some k) (hk : k = .uuid ∨ k = .text) :
    k = .uuid ∧ d = .postgres ∧ n = b!"UUID" ∨
    k = .text ∧ (scalarDest n = .str ∧ binaryTypes.contains n = false ∧
      n ∉ [b!"BINARY", b!"VARBINARY", b!"TINYBLOB", b!"BLOB", b!"MEDIUMBLOB", b!"LONGBLOB"] ∧
      n ≠ b!"UUID") := by
  unfold kind at h
  by_cases h1 : n ∈ [b!"TINYINT", b!"SMALLINT", b!"MEDIUMINT", b!"INT", b!"BIGINT"]
  · rw [if_pos h1] at h; rcases hk with rfl | rfl <;> cases h
  rw [if_neg h1] at h
  by_cases h2 : d = .postgres ∧ n = b!"BOOLEAN" ∨ d = .sqlserver ∧ n = b!"BIT"
  · rw [if_pos h2] at h; rcases hk with rfl | rfl <;> cases h
  rw [if_neg h2] at h
  by_cases h3 : n ∈ [b!"REAL", b!"DOUBLE PRECISION", b!"FLOAT", b!"DOUBLE"]
  · rw [if_pos h3] at h; rcases hk with rfl | rfl <;> cases h
  rw [if_neg h3] at h
  by_cases h4 : n = b!"NUMERIC"
  · rw [if_pos h4] at h; rcases hk with rfl | rfl <;> cases h
  rw [if_neg h4] at h
  by_cases h5 : n ∈ [b!"BYTEA", b!"BINARY", b!"VARBINARY", b!"TINYBLOB", b!"BLOB", b!"MEDIUMBLOB",
      b!"LONGBLOB"]
  · rw [if_pos h5] at h; rcases hk with rfl | rfl <;> cases h
  rw [if_neg h5] at h
  by_cases h6 : n ∈ [b!"TIMESTAMP", b!"TIMESTAMPTZ", b!"DATETIME", b!"DATETIME2", b!"SMALLDATETIME"]
  · rw [if_pos h6] at h; rcases hk with rfl | rfl <;> cases h
  rw [if_neg h6] at h
  by_cases h7 : n = b!"DATE"
  · rw [if_pos h7] at h; rcases hk with rfl | rfl <;> cases h
  rw [if_neg h7] at h
  by_cases h8 : d = .postgres ∧ n = b!"UUID"
  · rw [if_pos h8] at h; cases h; exact .inl ⟨rfl, h8⟩
  rw [if_neg h8] at h
  by_cases h9 : n ∈ [b!"TINYTEXT", b!"TEXT", b!"MEDIUMTEXT", b!"LONGTEXT", b!"CHAR", b!"VARCHAR",
      b!"NCHAR", b!"NVARCHAR", b!"JSON"]
  · rw [if_pos h9] at h; cases h
    have := facts_text n h9
    exact .inr ⟨rfl, this.1, this.2.1, this.2.2.2.1, this.2.2.2.2⟩
  rw [if_neg h9] at h
  by_cases h10 : d = .postgres ∧ n ∉ [b!"TIME", b!"TIMETZ", b!"BIT", b!"VARBIT", b!"DATETIMEOFFSET",
      b!"INTEGER"]
  · rw [if_pos h10] at h; cases h
    obtain ⟨rfl, h10⟩ := h10
    have u : n ≠ b!"UUID" := fun e => h8 ⟨rfl, e⟩
    have bo : n ≠ b!"BOOLEAN" := fun e => h2 (.inl ⟨rfl, e⟩)
    have n1 : ∀ x ∈ [b!"BYTEA", b!"BINARY", b!"VARBINARY", b!"TINYBLOB", b!"BLOB", b!"MEDIUMBLOB",
        b!"LONGBLOB"], n ≠ x := fun x hx e => h5 (e ▸ hx)
    have n2 : ∀ x ∈ [b!"TIME", b!"TIMETZ", b!"BIT", b!"VARBIT", b!"DATETIMEOFFSET", b!"INTEGER"], n ≠ x :=
      fun x hx e => h10 (e ▸ hx)
    have n3 : ∀ x ∈ [b!"TINYINT", b!"SMALLINT", b!"MEDIUMINT", b!"INT", b!"BIGINT"], n ≠ x :=
      fun x hx e => h1 (e ▸ hx)
    have n4 : ∀ x ∈ [b!"REAL", b!"DOUBLE PRECISION", b!"FLOAT", b!"DOUBLE"], n ≠ x :=
      fun x hx e => h3 (e ▸ hx)
    have n5 : ∀ x ∈ [b!"TIMESTAMP", b!"TIMESTAMPTZ", b!"DATETIME", b!"DATETIME2", b!"SMALLDATETIME"],
        n ≠ x := fun x hx e => h6 (e ▸ hx)
    have hs : ∀ l : List Str, (∀ x ∈ l, n ≠ x) → n ∉ l := fun l hl hm => hl n hm rfl
    refine .inr ⟨rfl, ?_, ?_, ?_, u⟩
    · unfold scalarDest
      rw [if_neg (hs _ fun x hx => ?_), if_neg (hs _ fun x hx => ?_), if_neg (hs _ fun x hx => ?_),
        if_neg (hs _ fun x hx => ?_)]
      · split
        · rfl
        · rw [if_neg (hs _ fun x hx => ?_)]
          grind
      all_goals grind
    · rw [Bool.eq_false_iff]
      intro hc
      exact hs binaryTypes (by unfold binaryTypes; grind) (List.elem_iff.1 hc)
    · exact hs _ (by grind)
  rw [if_neg h10] at h; cases h

theorem kind_uuid {d n} (h : kind d n = some .uuid) : d = .postgres ∧ n = b!"UUID" := by
  rcases kind_late h (.inl rfl) with h | h
  · exact h.2
  · cases h.1

/-- a type whose values are text -/
theorem kind_text {d n} (h : kind d n = some .text) :
    scalarDest n = .str ∧ binaryTypes.contains n = false ∧
    n ∉ [b!"BINARY", b!"VARBINARY", b!"TINYBLOB", b!"BLOB", b!"MEDIUMBLOB", b!"LONGBLOB"] ∧
    n ≠ b!"UUID" := by
  rcases kind_late h (.inr rfl) with h | h
  · cases h.1
  · exact h.2

theorem unsigned_not_binary (n : Str) : binaryTypes.contains (n ++ b!" UNSIGNED") = false := by
  rw [Bool.eq_false_iff]
  intro hc
  have h : ∀ x ∈ binaryTypes, ' ' ∉ x := by decide
  exact h _ (List.elem_iff.1 hc) (by simp)

theorem unsigned_not_array (n : Str) : hasSuffix (n ++ b!" UNSIGNED") b!"[]" = false := by
  simp [hasSuffix, List.isSuffixOf, List.isPrefixOf]

/-- Any value of a column of Postgres, MySQL or SQL Server is dumped to a field that is loaded as a
parameter for which the database stores the same value, if
* `dump` and `load` use the same null string and binary prefix (`SameSettings`),
* the column is of a kind that is described (`kind`), and has the same type when it is loaded,
* the value is NULL, or one that a CSV file can hold (`Plain`) and is not written as the null string,
* the text of a UUID does not begin like a binary literal, and
* arrays are dumped as text that does not end in `]`, not as JSON.

Partial: without these conditions it is false (see `Verif/Props/CsvLosses.lean`). -/
theorem value_roundtrip_partial {F} (fl : Floats F) (hfl : Exact fl) (d : Dialect) (hd : d ≠ .sqlite)
    (o : DumpOpts) (l : LoadOpts) (hs : SameSettings o l) (unix : Str → Option Int) (t ty : Str)
    (k : Kind) (hk : kind d (columnType d t) = some k)
    (hty : ty = columnType d t ∨ ty = columnType d t ++ b!" UNSIGNED" ∧ k ∈ [Kind.int, .float, .decimal])
    (hj : o.arrayAsJSON = false ∨ hasSuffix (columnType d t) b!"[]" = false)
    (v : Value F) (hv : v = .null ∨ Holds k v ∧ Plain fl k v)
    (hn : v ≠ .null → dumpField fl d o.run t v ≠ some o.run.nullstring)
    (hu : k = .uuid → ∀ s, v = .str s → o.uuidAsBytes = true ∨ ¬ o.run.binaryprefix <+: s)
    (ha : hasSuffix (columnType d t) b!"[]" = true → ∀ s, v = .str s → s.getLast? ≠ some ']') :
    ∃ f p, dumpField fl d o.run t v = some f ∧ UnixText f ∧ loadField d l.run unix ty f = some p ∧
      input fl.parse k p = some v := by
  obtain ⟨rn, rp, rnn, rnb, un, up⟩ := run_same hs
  have hdest : dest d o.run (columnType d t) = scalarDest (columnType d t) := dest_scalar hd hj
  generalize hN : columnType d t = n at *
  have hdf : ∀ v, dumpField fl d o.run t v = (scan fl (scalarDest n) v).map (field fl d o.run n) := by
    intro v
    rw [dumpField, hN, hdest]
  rcases hv with rfl | ⟨hv, hp⟩
  · -- NULL
    have hf : dumpField fl d o.run t (Value.null : Value F) = some o.run.nullstring := by
      rw [hdf]
      have : scalarDest n ∈ [Dest.bytes, .bool, .float, .int, .str, .time] := by
        unfold scalarDest
        grind
      generalize scalarDest n = x at this
      cases x <;> first | rfl | simp at this
    exact ⟨_, .null, hf, un, load_null rnn rn.symm, by cases k <;> rfl⟩
  · have hv0 : v ≠ .null := by
      rintro rfl
      cases k <;> exact hv
    -- text that is loaded as it is
    have plain : ∀ f, dumpField fl d o.run t v = some f → UnixText f →
        (binaryTypes.contains ty = false ∨ hasPrefix f o.run.binaryprefix = false) →
        (hasSuffix ty b!"[]" = true → f.getLast? ≠ some ']') →
        input fl.parse k (.str f) = some v →
        ∃ f p, dumpField fl d o.run t v = some f ∧ UnixText f ∧ loadField d l.run unix ty f = some p ∧
          input fl.parse k p = some v := by
      intro f h1 h2 h3 h4 h5
      refine ⟨f, .str f, h1, h2, load_text (fun e => ?_) (by rw [rp]; exact h3) h4 hd, h5⟩
      rw [e, rn] at h1
      exact hn hv0 h1
    -- a type of numbers
    have numeric : ∀ f, dumpField fl d o.run t v = some f → UnixText f → binaryTypes.contains n = false →
        hasSuffix n b!"[]" = false → input fl.parse k (.str f) = some v →
        ∃ f p, dumpField fl d o.run t v = some f ∧ UnixText f ∧ loadField d l.run unix ty f = some p ∧
          input fl.parse k p = some v := by
      intro f h1 h2 h3 h4 h5
      refine plain f h1 h2 (.inl ?_) (fun h => ?_) h5
      · rcases hty with e | ⟨e, _⟩
        · rw [e, h3]
        · rw [e, unsigned_not_binary]
      · rcases hty with e | ⟨e, _⟩
        · rw [e, h4] at h; cases h
        · rw [e, unsigned_not_array] at h; cases h
    cases k with
    | int =>
      cases v <;> simp only [Holds] at hv
      rename_i i
      have hm := facts_int n (kind_int hk)
      exact numeric (formatInt i) (by rw [hdf, hm.1]; rfl) (unix_of_not_cr (formatInt_clean i)) hm.2.1
        hm.2.2 (by simp [input, PqArray.parseInt64_formatInt i hv])
    | bool =>
      cases v <;> simp only [Holds] at hv
      rename_i b
      have hm : scalarDest n = .bool ∧ binaryTypes.contains n = false ∧ hasSuffix n b!"[]" = false := by
        rcases kind_bool hk with e | e <;> rw [e] <;> decide
      refine numeric (if b then b!"1" else b!"0") (by rw [hdf, hm.1]; rfl)
        (unix_of_not_cr (by cases b <;> decide)) hm.2.1 hm.2.2 (by cases b <;> rfl)
    | float =>
      cases v <;> simp only [Holds] at hv
      rename_i x
      have hm := facts_float n (kind_float hk)
      rcases hm.1 with h | h
      · exact numeric (fl.fmtF x) (by rw [hdf, h]; rfl) (unix_of_not_cr (hfl.cleanF x)) hm.2.1 hm.2.2.1
          (by simp [input, hfl.parseF])
      · refine numeric (fl.fmtG x) ?_ (unix_of_not_cr (hfl.cleanG x)) hm.2.1 hm.2.2.1
          (by simp [input, hfl.parseG])
        rw [hdf, h]
        show some (strField d o.run n (fl.fmtG x)) = _
        rw [strField, if_neg hm.2.2.2.1, if_neg (fun e => hm.2.2.2.2 e.1), if_neg (fun e => hm.2.2.2.2 e.1)]
    | decimal =>
      cases v <;> simp only [Holds] at hv
      rename_i s
      have e := kind_decimal hk
      obtain ⟨x, hx, hxs⟩ := hp
      have hm : scalarDest n = .float ∧ binaryTypes.contains n = false ∧ hasSuffix n b!"[]" = false := by
        rw [e]; decide
      refine numeric s ?_ (hxs ▸ unix_of_not_cr (hfl.cleanF x)) hm.2.1 hm.2.2 rfl
      rw [hdf, hm.1]
      simp [scan, asString, hx, field, hxs]
    | text =>
      cases v <;> simp only [Holds] at hv
      rename_i s
      have hm := kind_text hk
      have e : ty = n := by
        rcases hty with e | ⟨_, e⟩
        · exact e
        · simp at e
      refine plain s ?_ hp (.inl (by rw [e]; exact hm.2.1)) (fun h => ha (e ▸ h) s rfl) rfl
      rw [hdf, hm.1]
      show some (strField d o.run n s) = _
      rw [strField, if_neg hm.2.2.1, if_neg (fun e => hm.2.2.2 e.1), if_neg (fun e => hm.2.2.2 e.1)]
    | bytes =>
      cases v <;> simp only [Holds] at hv
      rename_i b
      have hm := facts_bytes n (kind_bytes hk)
      have e : ty = n := by
        rcases hty with e | ⟨_, e⟩
        · exact e
        · simp at e
      have hf : dumpField fl d o.run t (.bytes b : Value F) =
          some (if b = [] then o.run.nullstring else o.run.binaryprefix ++ hexEncode b) := by
        rw [hdf, hm.1]; rfl
      have hb : b ≠ [] := by
        rintro rfl
        exact hn hv0 (by rw [hf, if_pos rfl])
      rw [if_neg hb] at hf
      refine ⟨_, .bytes b, hf, unix_append up (lower_ne (hexEncode_lower hv)), ?_, rfl⟩
      rw [← rp, load_binary (fun h => hn hv0 (by rw [hf, ← rn, ← h, rp])) (by rw [e]; exact hm.2.1) rnb
        (by rw [rp]; exact run_prefix_ne o), PqArray.hexDecode_hexEncode b hv]
      rw [Option.bind_some, if_neg (fun h => hm.2.2.2 (e ▸ h.2))]
    | timestamp =>
      cases v <;> simp only [Holds] at hv
      rename_i tm
      have hm := facts_time n (kind_timestamp hk)
      exact numeric (timeText tm) (by rw [hdf, hm.1]; rfl) (unix_of_not_cr (timeText_clean tm)) hm.2.1
        hm.2.2 (by simp [input, readTime_timeText tm hv hp])
    | date =>
      cases v <;> simp only [Holds] at hv
      rename_i tm
      obtain ⟨y, mo, da, h, mi, se, na⟩ := tm
      obtain ⟨hv, rfl, rfl, rfl, rfl⟩ := hv
      have hm : scalarDest n = .time ∧ binaryTypes.contains n = false ∧ hasSuffix n b!"[]" = false := by
        rw [kind_date hk]; decide
      exact numeric _ (by rw [hdf, hm.1]; rfl) (unix_of_not_cr (timeText_clean _)) hm.2.1
        hm.2.2 (by simp [input, readTime_timeText _ hv rfl])
    | uuid =>
      cases v <;> simp only [Holds] at hv
      rename_i s
      obtain ⟨rfl, rfl⟩ := kind_uuid hk
      have e : ty = b!"UUID" := by
        rcases hty with e | ⟨_, e⟩
        · exact e
        · simp at e
      subst e
      obtain ⟨b, hb, hlen, htext, hlow⟩ := uuid_roundtrip hv
      have hf : dumpField fl .postgres o.run t (.str s : Value F) =
          some (if o.uuidAsBytes = true then o.run.binaryprefix ++ s.filter (· ≠ '-') else s) := by
        rw [hdf]
        show some (strField .postgres o.run b!"UUID" s) = _
        rw [strField, if_neg (by decide), if_neg (by simp)]
        simp [DumpOpts.run]
      by_cases ho : o.uuidAsBytes = true
      · rw [if_pos ho] at hf
        refine ⟨_, .str s, hf, unix_append up (lower_ne hlow), ?_, rfl⟩
        rw [← rp, load_binary (fun h => hn hv0 (by rw [hf, ← rn, ← h, rp])) (by decide) rnb
          (by rw [rp]; exact run_prefix_ne o), hb]
        rw [Option.bind_some, if_pos ⟨rfl, rfl⟩, if_pos hlen, htext]
      · rw [if_neg ho] at hf
        have hpre : hasPrefix s o.run.binaryprefix = false := by
          rw [Bool.eq_false_iff]
          intro h
          rcases hu rfl s rfl with h1 | h1
          · exact ho h1
          · exact h1 (List.isPrefixOf_iff_prefix.1 h)
        refine plain s hf ?_ (.inr hpre) (fun h => absurd h (by decide)) rfl
        obtain ⟨a, b, c, d, e, rfl, _, _, _, _, _, ha, hb, hc, hd, he⟩ := hv
        apply unix_of_not_cr
        have := fun {x} (h : LowerHex x) => lower_not h (c := '\r') (by decide)
        simp [this ha, this hb, this hc, this hd, this he]

theorem load_text' {d : Dialect} {l : LoadOpts} {unix : Str → Option Int} {ty f : Str}
    (hf : f ≠ l.nullstring)
    (hb : binaryTypes.contains ty = false ∨ hasPrefix f l.binaryprefix = false)
    (hd : d ≠ .postgres) (ht : ty ∉ [b!"TIMESTAMP", b!"DATETIME", b!"DATE"]) :
    loadField d l unix ty f = some (.str f) := by
  unfold loadField
  rw [if_neg (by simp [hf]), if_neg (by rcases hb with hb | hb <;> simp only [hb, Bool.and_false, Bool.false_and] <;> simp),
    if_neg (fun h => hd h.1), if_neg (fun h => ht h.2.2.1)]

/-- The same for SQLite, where columns have an affinity and values a type: any usual value (numbers in a
column of numbers, text, and byte strings in a column for them) comes back, if the column is not one
that the driver takes for a time or a boolean, the field is not the null string, and text in a UUID
column does not begin like a binary literal.

Partial: without these conditions it is false (see `Verif/Props/CsvLosses.lean`). -/
theorem sqlite_roundtrip_partial {F} (fl : Floats F) (toNumber : Affinity → Str → Option (Value F))
    (o : DumpOpts) (l : LoadOpts) (hs : SameSettings o l) (unix : Str → Option Int) (t : Str)
    (ht : columnType .sqlite t ∉ [b!"TIMESTAMP", b!"DATETIME", b!"DATE"])
    (v : Value F) (hv : v = .null ∨ Usual fl toNumber (columnType .sqlite t) v)
    (hn : v ≠ .null → dumpField fl .sqlite o.run t v ≠ some o.run.nullstring)
    (hp : columnType .sqlite t ∈ [b!"UUID", b!"BYTEA", b!"VARBIT"] →
      ∀ s, v = .str s → ¬ o.run.binaryprefix <+: s) :
    ∃ f p, dumpField fl .sqlite o.run t v = some f ∧ UnixText f ∧
      loadField .sqlite l.run unix (columnType .sqlite t) f = some p ∧
      store toNumber (affinity (columnType .sqlite t)) p = v := by
  obtain ⟨rn, rp, rnn, rnb, un, up⟩ := run_same hs
  generalize hN : columnType .sqlite t = n at *
  have hdf : ∀ v, dumpField fl .sqlite o.run t v = (scan fl .str v).map (field fl .sqlite o.run n) := by
    intro v
    rw [dumpField, hN, dest, if_pos rfl, if_neg]
    intro h
    rcases h with h | h <;> simp [h] at ht
  rcases hv with rfl | hv
  · exact ⟨_, .null, hdf _, un, load_null rnn rn.symm, by cases affinity n <;> rfl⟩
  · have hv0 : v ≠ .null := by rintro rfl; exact hv
    have hbin : n ∉ [b!"BINARY", b!"VARBINARY", b!"TINYBLOB", b!"BLOB", b!"MEDIUMBLOB", b!"LONGBLOB"] →
        n ∉ [b!"UUID", b!"BYTEA", b!"VARBIT"] → binaryTypes.contains n = false := by
      intro h1 h2
      rw [Bool.eq_false_iff]
      intro h
      have := List.elem_iff.1 h
      unfold binaryTypes at this
      grind
    -- text
    have plain : ∀ f, dumpField fl .sqlite o.run t v = some f → UnixText f →
        (binaryTypes.contains n = false ∨ hasPrefix f o.run.binaryprefix = false) →
        store toNumber (affinity n) (.str f) = v →
        ∃ f p, dumpField fl .sqlite o.run t v = some f ∧ UnixText f ∧
          loadField .sqlite l.run unix n f = some p ∧ store toNumber (affinity n) p = v := by
      intro f h1 h2 h3 h4
      refine ⟨f, .str f, h1, h2, load_text' (fun e => ?_) (by rw [rp]; exact h3) (by simp) ht, h4⟩
      rw [e, rn] at h1
      exact hn hv0 h1
    have number : ∀ f, n ∉ b!"UUID" :: [b!"BYTEA", b!"VARBIT", b!"BINARY", b!"VARBINARY", b!"TINYBLOB",
        b!"BLOB", b!"MEDIUMBLOB", b!"LONGBLOB"] → strField .sqlite o.run n f = f ∧
        binaryTypes.contains n = false := by
      intro f h
      have h1 : n ∉ [b!"BINARY", b!"VARBINARY", b!"TINYBLOB", b!"BLOB", b!"MEDIUMBLOB", b!"LONGBLOB"] := by
        grind
      have h2 : n ≠ b!"UUID" := by grind
      refine ⟨?_, hbin h1 (by grind)⟩
      rw [strField, if_neg h1, if_neg (fun e => h2 e.1), if_neg (fun e => h2 e.1)]
    cases v with
    | null => exact absurd rfl hv0
    | bool b => exact hv.elim
    | time b => exact hv.elim
    | int i =>
      obtain ⟨h1, h2, h3⟩ := hv
      obtain ⟨e1, e2⟩ := number (formatInt i) h3
      refine plain (formatInt i) (by rw [hdf]; exact congrArg some e1) (unix_of_not_cr (formatInt_clean i))
        (.inl e2) ?_
      rw [h1]
      simp [store, h2]
    | float x =>
      obtain ⟨h1, h2, h4, h3⟩ := hv
      obtain ⟨e1, e2⟩ := number (fl.fmtG x) h3
      refine plain (fl.fmtG x) (by rw [hdf]; exact congrArg some e1) (unix_of_not_cr h4) (.inl e2) ?_
      rcases h1 with h1 | h1 <;> rw [h1] at h2 ⊢ <;> simp [store, h2]
    | str s =>
      obtain ⟨h1, h2, h3, h4⟩ := hv
      have e1 : strField .sqlite o.run n s = s := by
        rw [strField, if_neg h4, if_neg (fun e => h3 e.1 e.2.2), if_neg (by simp)]
      refine plain s (by rw [hdf]; exact congrArg some e1) h1 ?_ ?_
      · by_cases h : n ∈ [b!"UUID", b!"BYTEA", b!"VARBIT"]
        · refine .inr (Bool.eq_false_iff.2 fun h5 => ?_)
          exact hp h s rfl (List.isPrefixOf_iff_prefix.1 h5)
        · exact .inl (hbin h4 h)
      · cases ha : affinity n with
        | text => rfl
        | blob => rfl
        | number => rw [ha] at h2; simp at h2; simp [store, h2]
        | real => rw [ha] at h2; simp at h2; simp [store, h2]
    | bytes b =>
      obtain ⟨h1, h2⟩ := hv
      have e1 : strField .sqlite o.run n b = o.run.binaryprefix ++ hexEncode b := by
        rcases h2 with ⟨e, hl⟩ | h2
        · rw [strField, if_neg (by rw [e]; decide), if_pos ⟨e, rfl, hl⟩]
        · rw [strField, if_pos h2]
      have hf : dumpField fl .sqlite o.run t (.bytes b : Value F) =
          some (o.run.binaryprefix ++ hexEncode b) := by
        rw [hdf]; exact congrArg some e1
      refine ⟨_, .bytes b, hf, unix_append up (lower_ne (hexEncode_lower h1)), ?_, by cases affinity n <;> rfl⟩
      have hm : binaryTypes.contains n = true := by
        rcases h2 with ⟨e, _⟩ | h2
        · rw [e]; decide
        · have : ∀ x ∈ [b!"BINARY", b!"VARBINARY", b!"TINYBLOB", b!"BLOB", b!"MEDIUMBLOB", b!"LONGBLOB"],
              binaryTypes.contains x = true := by decide
          exact this n h2
      rw [← rp, load_binary (fun h => hn hv0 (by rw [hf, ← rn, ← h, rp])) hm rnb
        (by rw [rp]; exact run_prefix_ne o), PqArray.hexDecode_hexEncode b h1]
      rw [Option.bind_some, if_neg (by simp)]

/-- A time in a TIMESTAMP or DATETIME column of SQLite is written as text that the driver reads as the
same time, if it has no fractions of a second. -/
theorem sqlite_time_roundtrip {F} (fl : Floats F) (o : DumpOpts) (l : LoadOpts) (hs : SameSettings o l)
    (hl : l.timestampAsInteger = false) (unix : Str → Option Int) (ty : Str)
    (hty : columnType .sqlite ty ∈ [b!"TIMESTAMP", b!"DATETIME"]) (t : Time) (ht : IsTime t)
    (h0 : t.nano = 0) (hn : timeText t ≠ o.run.nullstring) :
    ∃ f, dumpField fl .sqlite o.run ty (.time t : Value F) = some f ∧ UnixText f ∧
      loadField .sqlite l.run unix (columnType .sqlite ty) f = some (.str f) ∧ readTime f = some t := by
  obtain ⟨rn, rp, rnn, rnb, un, up⟩ := run_same hs
  generalize hN : columnType .sqlite ty = n at *
  refine ⟨timeText t, ?_, unix_of_not_cr (timeText_clean t), ?_, readTime_timeText t ht h0⟩
  · rw [dumpField, hN, dest, if_pos rfl, if_pos]
    · rfl
    · simp at hty; exact hty.symm
  · have hb : ∀ x ∈ [b!"TIMESTAMP", b!"DATETIME"], binaryTypes.contains x = false := by decide
    unfold loadField
    rw [if_neg (by simp [rn, hn]), if_neg (by simp only [hb n hty, Bool.false_and]; simp),
      if_neg (by simp), if_neg]
    intro h
    rw [show l.run.timestampAsInteger = l.timestampAsInteger from rfl, hl] at h
    simp at h

/-! ## With the default settings -/

theorem formatInt_ne (i : Int) : formatInt i ≠ b!"\\N" := by
  intro h
  have hm : ∀ c ∈ formatInt i, c = '-' ∨ isDigit c = true := by
    cases i with
    | ofNat n => exact fun c hc => .inr (PqArray.toDigits_digits n c hc)
    | negSucc n =>
      intro c hc
      rcases List.mem_cons.1 hc with rfl | hc
      · exact .inl rfl
      · exact .inr (PqArray.toDigits_digits _ c hc)
  have := hm '\\' (by rw [h]; simp)
  revert this
  decide

/-- With the default settings only text that is `\N` and empty byte strings are mistaken for NULL. -/
theorem default_roundtrip_partial {F} (fl : Floats F) (hfl : Exact fl) (hfn : fl.parse b!"\\N" = none)
    (d : Dialect) (hd : d ≠ .sqlite) (u : Bool) (unix : Str → Option Int) (t ty : Str)
    (k : Kind) (hk : kind d (columnType d t) = some k)
    (hty : ty = columnType d t ∨ ty = columnType d t ++ b!" UNSIGNED" ∧ k ∈ [Kind.int, .float, .decimal])
    (v : Value F) (hv : v = .null ∨ Holds k v ∧ Plain fl k v)
    (hn : v ≠ .str b!"\\N" ∧ v ≠ .bytes [])
    (ha : hasSuffix (columnType d t) b!"[]" = true → ∀ s, v = .str s → s.getLast? ≠ some ']') :
    ∃ f p, dumpField fl d (DumpOpts.run { uuidAsBytes := u }) t v = some f ∧ UnixText f ∧
      loadField d (LoadOpts.run {}) unix ty f = some p ∧ input fl.parse k p = some v := by
  have hs : SameSettings { uuidAsBytes := u } ({} : LoadOpts) :=
    ⟨rfl, rfl, rfl, rfl, unix_of_not_cr (by simp), unix_of_not_cr (by simp)⟩
  refine value_roundtrip_partial fl hfl d hd { uuidAsBytes := u } {} hs unix t ty k hk hty (.inl rfl) v hv
    (fun hv0 => ?_) ?_ ha
  · rcases hv with rfl | ⟨hv, hp⟩
    · exact absurd rfl hv0
    rw [dumpField, dest_scalar hd (.inl rfl)]
    generalize hN : columnType d t = n at *
    show (scan fl (scalarDest n) v).map _ ≠ some b!"\\N"
    intro h
    cases k with
    | int =>
      cases v <;> simp only [Holds] at hv
      rw [(facts_int n (kind_int hk)).1] at h
      exact formatInt_ne _ (Option.some.inj h)
    | bool =>
      cases v <;> simp only [Holds] at hv
      rename_i b
      have hm : scalarDest n = .bool := by
        rcases kind_bool hk with e | e <;> rw [e] <;> decide
      rw [hm] at h
      cases b <;> cases (show _ = b!"\\N" from Option.some.inj h)
    | float =>
      cases v <;> simp only [Holds] at hv
      rename_i x
      have hm := facts_float n (kind_float hk)
      rcases hm.1 with e | e
      · rw [e] at h
        have := hfl.parseF x
        rw [show fl.fmtF x = b!"\\N" from Option.some.inj h, hfn] at this
        cases this
      · rw [e] at h
        have := hfl.parseG x
        have h' : strField d (DumpOpts.run { uuidAsBytes := u }) n (fl.fmtG x) = b!"\\N" :=
          Option.some.inj h
        rw [strField, if_neg hm.2.2.2.1, if_neg (fun e => hm.2.2.2.2 e.1),
          if_neg (fun e => hm.2.2.2.2 e.1)] at h'
        rw [h', hfn] at this
        cases this
    | decimal =>
      cases v <;> simp only [Holds] at hv
      rename_i s
      obtain ⟨x, hx, hxs⟩ := hp
      have hm : scalarDest n = .float := by rw [kind_decimal hk]; decide
      rw [hm] at h
      simp [scan, asString, hx, field, hxs] at h
      rw [h, hfn] at hx
      cases hx
    | text =>
      cases v <;> simp only [Holds] at hv
      rename_i s
      have hm := kind_text hk
      rw [hm.1] at h
      have h' : strField d (DumpOpts.run { uuidAsBytes := u }) n s = b!"\\N" := Option.some.inj h
      rw [strField, if_neg hm.2.2.1, if_neg (fun e => hm.2.2.2 e.1), if_neg (fun e => hm.2.2.2 e.1)] at h'
      exact hn.1 (congrArg _ h')
    | bytes =>
      cases v <;> simp only [Holds] at hv
      rename_i b
      rw [(facts_bytes n (kind_bytes hk)).1] at h
      have h' : (if b = [] then b!"\\N" else b!"0x" ++ hexEncode b) = b!"\\N" := Option.some.inj h
      rw [if_neg (fun e => hn.2 (congrArg _ e))] at h'
      simp at h'
    | timestamp =>
      cases v <;> simp only [Holds] at hv
      rename_i tm
      rw [(facts_time n (kind_timestamp hk)).1] at h
      have := readTime_timeText tm hv hp
      rw [show timeText tm = b!"\\N" from Option.some.inj h] at this
      exact absurd this (by rw [show readTime b!"\\N" = none from by decide]; simp)
    | date =>
      cases v <;> simp only [Holds] at hv
      rename_i tm
      have hm : scalarDest n = .time := by rw [kind_date hk]; decide
      rw [hm] at h
      have := readTime_timeText tm hv.1 hv.2.2.2.2
      rw [show timeText tm = b!"\\N" from Option.some.inj h] at this
      exact absurd this (by rw [show readTime b!"\\N" = none from by decide]; simp)
    | uuid =>
      cases v <;> simp only [Holds] at hv
      rename_i s
      obtain ⟨rfl, rfl⟩ := kind_uuid hk
      have h' : strField .postgres (DumpOpts.run { uuidAsBytes := u }) b!"UUID" s = b!"\\N" :=
        Option.some.inj h
      rw [strField, if_neg (by decide), if_neg (by simp)] at h'
      split at h'
      · simp [DumpOpts.run] at h'
      · exact hn.1 (congrArg _ h')
  · rintro rfl s rfl
    refine .inr ?_
    rcases hv with hv | ⟨hv, _⟩
    · cases hv
    obtain ⟨a, b, c, d, e, rfl, la, _, _, _, _, hla, _⟩ := hv
    show ¬ b!"0x" <+: _
    rintro ⟨z, hz⟩
    match a, la, hla with
    | x :: y :: a, _, hla =>
      simp at hz
      have := hla y (by simp)
      rw [← hz.2.1] at this
      revert this
      decide

/-! ## Tables -/

end Sqddl.DumpCsv

namespace CsvSpec
open Go Sqddl Sqddl.DumpCsv

/-- The conditions of `value_roundtrip_partial` on a value of a column that has the type `t` in the
catalog when it is dumped, and the normalised type `ty` when it is loaded. -/
structure Survives {F} (fl : Floats F) (d : Dialect) (o : DumpOpts) (t ty : Str) (v : Value F) : Prop where
  kind : ∃ k, kind d (columnType d t) = some k ∧ (v = .null ∨ Holds k v ∧ Plain fl k v) ∧
    (ty = columnType d t ∨ ty = columnType d t ++ b!" UNSIGNED" ∧ k ∈ [Kind.int, .float, .decimal]) ∧
    (k = .uuid → ∀ s, v = .str s → o.uuidAsBytes = true ∨ ¬ o.run.binaryprefix <+: s)
  notNull : v ≠ .null → dumpField fl d o.run t v ≠ some o.run.nullstring
  json : o.arrayAsJSON = false ∨ hasSuffix (columnType d t) b!"[]" = false
  array : hasSuffix (columnType d t) b!"[]" = true → ∀ s, v = .str s → s.getLast? ≠ some ']'

/-- What the database stores for the parameters of a row. -/
def stored {F} (fl : Floats F) (d : Dialect) (cols : List Column) (ps : List Param) :
    List (Option (Value F)) :=
  (cols.zip ps).map fun x => (kind d (columnType d x.1.columnType)).bind fun k => input fl.parse k x.2

end CsvSpec

namespace Sqddl.DumpCsv
open Go CsvSpec

/-- one row -/
theorem row_roundtrip {F} (fl : Floats F) (d : Dialect) (o : DumpOpts) (l : LoadOpts)
    (unix : Str → Option Int) (ty : Column → Str) (cols : List Column) (r : List (Value F))
    (hl : r.length = cols.length)
    (h : ∀ x ∈ cols.zip r, ∃ f p, dumpField fl d o x.1.columnType x.2 = some f ∧ UnixText f ∧
      loadField d l unix (ty x.1) f = some p ∧
      ((kind d (columnType d x.1.columnType)).bind fun k => input fl.parse k p) = some x.2) :
    ∃ fs ps, ((cols.zip r).mapM fun p => dumpField fl d o p.1.columnType p.2) = some fs ∧
      fs.length = cols.length ∧ (∀ f ∈ fs, UnixText f) ∧
      (((cols.map ty).zip fs).mapM fun p => loadField d l unix p.1 p.2) = some ps ∧
      stored fl d cols ps = r.map some := by
  induction cols generalizing r with
  | nil =>
    have : r = [] := List.length_eq_zero_iff.1 hl
    subst this
    exact ⟨[], [], rfl, rfl, by simp, rfl, rfl⟩
  | cons c cols ih =>
    cases r with
    | nil => cases hl
    | cons v r =>
      obtain ⟨fs, ps, h1, h2, h3, h4, h5⟩ := ih r (by simpa using hl)
        (fun x hx => h x (by rw [List.zip_cons_cons]; exact List.mem_cons_of_mem _ hx))
      obtain ⟨f, p, g1, g2, g3, g4⟩ := h (c, v) (by rw [List.zip_cons_cons]; exact List.mem_cons_self)
      refine ⟨f :: fs, p :: ps, ?_, by simp [h2], ?_, ?_, ?_⟩
      · rw [List.zip_cons_cons, List.mapM_cons, h1]
        dsimp only at g1 ⊢
        rw [g1]; rfl
      · intro x hx
        rcases List.mem_cons.1 hx with rfl | hx
        · exact g2
        · exact h3 x hx
      · rw [List.map_cons, List.zip_cons_cons, List.mapM_cons, h4]
        dsimp only at g3 ⊢
        rw [g3]; rfl
      · unfold stored at h5 ⊢
        rw [List.zip_cons_cons, List.map_cons, h5, List.map_cons]
        exact congrArg (· :: _) g4

/-- A dumped table is loaded with the same columns and rows: if every value survives (see
`value_roundtrip_partial`), the table has more than one column (or its only column has a name and no
empty field), the columns that are dumped are found in the table that it is loaded into, and that has a
primary key in MySQL and SQL Server. -/
theorem table_roundtrip_partial {F} (fl : Floats F) (hfl : Exact fl) (space : Str → Bool) (d : Dialect)
    (hd : d ≠ .sqlite) (o : DumpOpts) (l : LoadOpts) (hs : SameSettings o l) (unix : Str → Option Int)
    (t : Table) (types : List (Str × Str)) (hasPkey : Bool)
    (hpk : d = .mysql ∨ d = .sqlserver → hasPkey = true) (rows : List (List (Value F)))
    (hname : ∀ c ∈ dumpedColumns t, UnixText c.columnName)
    (hrows : ∀ r ∈ rows, r.length = (dumpedColumns t).length ∧ ∀ x ∈ (dumpedColumns t).zip r,
      ∃ u, types.lookup x.1.columnName = some u ∧ Survives fl d o x.1.columnType (normType d u).1 x.2)
    (hvis : 2 ≤ (dumpedColumns t).length ∨
      (∃ c, dumpedColumns t = [c] ∧ c.columnName ≠ []) ∧
      ∀ r ∈ rows, ∀ x ∈ (dumpedColumns t).zip r, dumpField fl d o.run x.1.columnType x.2 ≠ some []) :
    ∃ text ps, dumpCSV fl space d o.run t rows = some text ∧
      loadCSV d l.run unix hasPkey types text = some ((dumpedColumns t).map (·.columnName), ps) ∧
      ps.map (stored fl d (dumpedColumns t)) = rows.map (·.map some) := by
  generalize hC : dumpedColumns t = cols at *
  have htys : columnTypes d hasPkey types (cols.map (·.columnName)) = cols.map fun c =>
      match types.lookup c.columnName with
      | some u => (normType d u).1
      | none => [] := by
    unfold columnTypes
    rw [List.map_map, if_neg]
    · rfl
    · rintro ⟨h1, h2⟩
      rw [hpk h1] at h2
      cases h2
  generalize hty : (fun c : Column => match types.lookup c.columnName with
      | some u => (normType d u).1
      | none => []) = ty at htys
  have hrow : ∀ r ∈ rows, ∃ fs ps, ((cols.zip r).mapM fun p => dumpField fl d o.run p.1.columnType p.2) = some fs ∧
      fs.length = cols.length ∧ (∀ f ∈ fs, UnixText f) ∧
      (((cols.map ty).zip fs).mapM fun p => loadField d l.run unix p.1 p.2) = some ps ∧
      stored fl d cols ps = r.map some := by
    intro r hr
    refine row_roundtrip fl d o.run l.run unix ty cols r (hrows r hr).1 fun x hx => ?_
    obtain ⟨u, hu, hsv⟩ := (hrows r hr).2 x hx
    obtain ⟨k, hk, hv, ht, hu2⟩ := hsv.kind
    have e : ty x.1 = (normType d u).1 := by
      rw [← hty]
      dsimp only
      rw [hu]
    obtain ⟨f, p, h1, h2, h3, h4⟩ := value_roundtrip_partial fl hfl d hd o l hs unix x.1.columnType
      (ty x.1) k hk (by rw [e]; exact ht) hsv.json x.2 hv hsv.notNull hu2 hsv.array
    exact ⟨f, p, h1, h2, h3, by rw [hk]; exact h4⟩
  have hvr : ∀ r ∈ rows, ∀ fs, ((cols.zip r).mapM fun p => dumpField fl d o.run p.1.columnType p.2) = some fs →
      fs.length = cols.length → Visible fs := by
    intro r hr fs hfs hlen
    rcases hvis with hv | ⟨⟨c, hc, _⟩, hv⟩
    · match fs, hlen with
      | [], hlen => simp at hlen; omega
      | [x], hlen => simp at hlen; omega
      | x :: y :: fs, _ => exact ⟨by simp, by simp⟩
    · subst hc
      obtain ⟨v, rfl⟩ : ∃ v, r = [v] := List.length_eq_one_iff.1 (hrows r hr).1
      have hv' := hv _ hr (c, v) (by simp)
      refine ⟨fun e => (by rw [e] at hlen; cases hlen), ?_⟩
      rintro rfl
      rw [List.zip_cons_cons, List.mapM_cons] at hfs
      cases hdv : dumpField fl d o.run c.columnType v with
      | none =>
        dsimp only at hfs
        rw [hdv] at hfs; cases hfs
      | some f =>
        dsimp only at hfs hv'
        rw [hdv] at hfs
        have hf : f = [] := by
          have h' := Option.some.inj hfs
          simpa using h'
        exact hv' (hdv.trans (congrArg some hf))
  have hall : ∃ rs ps, (rows.mapM fun r => (cols.zip r).mapM fun p => dumpField fl d o.run p.1.columnType p.2) =
      some rs ∧ (∀ r ∈ rs, Visible r ∧ ∀ f ∈ r, UnixText f) ∧
      loadRows d l.run unix (cols.map ty) rs = some ps ∧
      ps.map (stored fl d cols) = rows.map (·.map some) := by
    clear hrows hvis
    induction rows with
    | nil => exact ⟨[], [], rfl, by simp, rfl, rfl⟩
    | cons r rows ih =>
      obtain ⟨rs, ps, h1, h2, h3, h4⟩ := ih (fun r hr => hrow r (List.mem_cons_of_mem _ hr))
        (fun r hr => hvr r (List.mem_cons_of_mem _ hr))
      obtain ⟨fs, qs, g1, g2, g3, g4, g5⟩ := hrow r List.mem_cons_self
      refine ⟨fs :: rs, qs :: ps, ?_, ?_, ?_, ?_⟩
      · rw [List.mapM_cons, h1, g1]; rfl
      · intro x hx
        rcases List.mem_cons.1 hx with rfl | hx
        · exact ⟨hvr r List.mem_cons_self x g1 g2, g3⟩
        · exact h2 x hx
      · rw [loadRows, if_neg (by simp [g2]), g4, h3]; rfl
      · rw [List.map_cons, List.map_cons, h4, g5]
  obtain ⟨rs, ps, h1, h2, h3, h4⟩ := hall
  refine ⟨Csv.write space (cols.map (·.columnName) :: rs), ps, ?_, ?_, h4⟩
  · unfold dumpCSV
    rw [hC, h1]; rfl
  · have hhead : Visible (cols.map (·.columnName)) := by
      rcases hvis with hv | ⟨⟨c, hc, hn⟩, _⟩
      · match cols, hv with
        | x :: y :: cols, _ => exact ⟨by simp, by simp⟩
      · rw [hc]
        exact ⟨by simp, by simp [hn]⟩
    have hread : Csv.read (Csv.write space (cols.map (·.columnName) :: rs)) =
        cols.map (·.columnName) :: rs := by
      have hf : (cols.map (·.columnName) :: rs).filter (fun r => decide (Visible r)) =
          cols.map (·.columnName) :: rs := by
        rw [List.filter_eq_self]
        intro r hr
        rcases List.mem_cons.1 hr with rfl | hr
        · exact decide_eq_true hhead
        · exact decide_eq_true (h2 r hr).1
      rw [Csv.read_write, hf, List.map_cons]
      congr 1
      · rw [List.map_map]
        exact List.map_congr_left fun c hc => Csv.lf_unix (hname c hc)
      · conv => rhs; rw [← List.map_id rs]
        refine List.map_congr_left fun r hr => ?_
        conv => rhs; rw [id, ← List.map_id r]
        exact List.map_congr_left fun f hf => Csv.lf_unix ((h2 r hr).2 f hf)
    unfold loadCSV
    rw [hread]
    dsimp only
    rw [htys, h3]; rfl

/-! ## Examples -/

/-- A type with two floating point numbers, for the examples. -/
def two : Floats Bool where
  fmtF x := if x then b!"1.5" else b!"100000000000000000000000"
  fmtG x := if x then b!"1.5" else b!"1e+23"
  parse s := if s = b!"1.5" then some true
    else if s = b!"100000000000000000000000" ∨ s = b!"1e+23" then some false else none

theorem two_exact : Exact two :=
  ⟨by decide, by decide, by decide, by decide⟩

/-- text with quotes, a comma and a line end, in a VARCHAR column of MySQL -/
example : ∃ f p, dumpField two .mysql (DumpOpts.run { uuidAsBytes := false }) b!"VARCHAR(20)"
      (.str b!"say \"a, b\"\nc") = some f ∧ UnixText f ∧
    loadField .mysql (LoadOpts.run {}) (fun _ => none) b!"VARCHAR" f = some p ∧
    input two.parse .text p = some (.str b!"say \"a, b\"\nc") :=
  default_roundtrip_partial two two_exact (by decide) .mysql (by decide) false (fun _ => none)
    b!"VARCHAR(20)" b!"VARCHAR" .text (by decide +kernel) (.inl (by decide +kernel)) _
    (.inr ⟨trivial, by
      intro a b e
      exact absurd (show '\r' ∈ b!"say \"a, b\"\nc" by rw [e]; simp) (by decide)⟩)
    (by simp) (fun h => absurd h (by decide +kernel))

/-- a time, with a null string and a binary prefix of one's own, in SQL Server -/
example : ∃ f p, dumpField two .sqlserver (DumpOpts.run { nullstring := b!"NULL", binaryprefix := b!"#" })
      b!"DATETIME2" (.time ⟨2024, 2, 29, 23, 5, 7, 0⟩) = some f ∧ UnixText f ∧
    loadField .sqlserver (LoadOpts.run { nullstring := b!"NULL", binaryprefix := b!"#" }) (fun _ => none)
      b!"DATETIME2" f = some p ∧
    input two.parse .timestamp p = some (.time ⟨2024, 2, 29, 23, 5, 7, 0⟩) :=
  value_roundtrip_partial two two_exact .sqlserver (by decide)
    { nullstring := b!"NULL", binaryprefix := b!"#" } { nullstring := b!"NULL", binaryprefix := b!"#" }
    ⟨rfl, rfl, rfl, rfl, unix_of_not_cr (by decide), unix_of_not_cr (by decide)⟩ (fun _ => none)
    b!"DATETIME2" b!"DATETIME2" .timestamp (by decide +kernel) (.inl (by decide +kernel)) (.inl rfl) _
    (.inr ⟨show IsTime _ by decide, rfl⟩) (fun _ => by decide +kernel) (by simp)
    (fun h => absurd h (by decide +kernel))

/-- a byte string in a BLOB column of SQLite -/
example : ∃ f p, dumpField two .sqlite (DumpOpts.run {}) b!"BLOB" (.bytes [Char.ofNat 0, Char.ofNat 255]) =
      some f ∧ UnixText f ∧
    loadField .sqlite (LoadOpts.run {}) (fun _ => none) (columnType .sqlite b!"BLOB") f = some p ∧
    store (fun _ _ => none) (affinity (columnType .sqlite b!"BLOB")) p =
      (.bytes [Char.ofNat 0, Char.ofNat 255] : Value Bool) :=
  sqlite_roundtrip_partial two (fun _ _ => none) {} {}
    ⟨rfl, rfl, rfl, rfl, unix_of_not_cr (by decide), unix_of_not_cr (by decide)⟩ (fun _ => none) b!"BLOB"
    (by decide +kernel) _
    (.inr ⟨show Bytes _ by decide, .inr (by decide +kernel)⟩) (fun _ => by decide +kernel)
    (fun _ s h => by cases h)

example : ∃ f, dumpField two .sqlite (DumpOpts.run {}) b!"DATETIME" (.time ⟨2024, 2, 29, 23, 5, 7, 0⟩) =
      some f ∧ UnixText f ∧
    loadField .sqlite (LoadOpts.run {}) (fun _ => none) (columnType .sqlite b!"DATETIME") f = some (.str f) ∧
    readTime f = some ⟨2024, 2, 29, 23, 5, 7, 0⟩ :=
  sqlite_time_roundtrip two {} {}
    ⟨rfl, rfl, rfl, rfl, unix_of_not_cr (by decide), unix_of_not_cr (by decide)⟩ rfl (fun _ => none)
    b!"DATETIME" (by decide +kernel) _ (show IsTime _ by decide) rfl (by decide +kernel)

/-- The table of the example: a generated column is not dumped. -/
def exampleTable : Table :=
  { tableName := b!"t"
    columns := [{ columnName := b!"id", columnType := b!"INT" }, { columnName := b!"g", columnType := b!"INT", isGenerated := true },
      { columnName := b!"name", columnType := b!"VARCHAR(9)" }] }

theorem exampleTable_survives :
    ∀ r ∈ [[Value.int 1, .str b!"a,b"], [(Value.int (-2) : Value Bool), .null]],
      r.length = (dumpedColumns exampleTable).length ∧
      ∀ x ∈ (dumpedColumns exampleTable).zip r, ∃ u,
        [(b!"name", b!"CHARACTER VARYING(9)"), (b!"g", b!"INTEGER"), (b!"id", b!"INTEGER")].lookup x.1.columnName = some u ∧
        Survives two .postgres {} x.1.columnType (normType .postgres u).1 x.2 := by
  have hcols : dumpedColumns exampleTable = [{ columnName := b!"id", columnType := b!"INT" },
      { columnName := b!"name", columnType := b!"VARCHAR(9)" }] := by decide
  rw [hcols]
  intro r hr
  simp only [List.mem_cons, List.not_mem_nil, or_false] at hr
  have ha : ¬ hasSuffix (columnType .postgres b!"INT") b!"[]" = true := by decide +kernel
  have hb : ¬ hasSuffix (columnType .postgres b!"VARCHAR(9)") b!"[]" = true := by decide +kernel
  rcases hr with rfl | rfl
  · refine ⟨rfl, fun x hx => ?_⟩
    simp only [List.zip_cons_cons, List.zip_nil_right, List.mem_cons, List.not_mem_nil, or_false] at hx
    rcases hx with rfl | rfl
    · exact ⟨b!"INTEGER", by decide, ⟨.int, by decide +kernel, .inr ⟨by simp [Holds], trivial⟩,
        .inl (by decide +kernel), by simp⟩, fun _ => by decide +kernel, .inl rfl, fun h => absurd h ha⟩
    · exact ⟨b!"CHARACTER VARYING(9)", by decide, ⟨.text, by decide +kernel,
        .inr ⟨trivial, unix_of_not_cr (by decide)⟩,
        .inl (by decide +kernel), by simp⟩, fun _ => by decide +kernel, .inl rfl, fun h => absurd h hb⟩
  · refine ⟨rfl, fun x hx => ?_⟩
    simp only [List.zip_cons_cons, List.zip_nil_right, List.mem_cons, List.not_mem_nil, or_false] at hx
    rcases hx with rfl | rfl
    · exact ⟨b!"INTEGER", by decide, ⟨.int, by decide +kernel, .inr ⟨by simp [Holds], trivial⟩,
        .inl (by decide +kernel), by simp⟩, fun _ => by decide +kernel, .inl rfl, fun h => absurd h ha⟩
    · exact ⟨b!"CHARACTER VARYING(9)", by decide, ⟨.text, by decide +kernel,
        .inl rfl,
        .inl (by decide +kernel), by simp⟩, fun h => absurd rfl h, .inl rfl, fun h => absurd h hb⟩

example : ∃ text ps,
    dumpCSV two (fun _ => false) .postgres (DumpOpts.run {}) exampleTable
      [[Value.int 1, .str b!"a,b"], [.int (-2), .null]] = some text ∧
    loadCSV .postgres (LoadOpts.run {}) (fun _ => none) false
      [(b!"name", b!"CHARACTER VARYING(9)"), (b!"g", b!"INTEGER"), (b!"id", b!"INTEGER")] text =
      some ((dumpedColumns exampleTable).map (·.columnName), ps) ∧
    ps.map (stored two .postgres (dumpedColumns exampleTable)) =
      [[Value.int 1, .str b!"a,b"], [.int (-2), .null]].map (·.map some) :=
  table_roundtrip_partial two two_exact (fun _ => false) .postgres (by decide) {} {}
    ⟨rfl, rfl, rfl, rfl, unix_of_not_cr (by decide), unix_of_not_cr (by decide)⟩ (fun _ => none)
    exampleTable _ false (by simp) _ (fun c hc => unix_of_not_cr (by
      revert c; decide)) exampleTable_survives (.inl (by decide))

end Sqddl.DumpCsv
