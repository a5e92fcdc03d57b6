import Verif.Props.CsvValues
import Verif.Props.PqArray
import Verif.Props.Load

/-!
# What a dump to CSV loses (C47), which rows it has (C68), which table it goes to (C69)
-/

namespace Sqddl.DumpCsv
open Go CsvSpec

/-! ## Values that do not come back

`back` is the value that is stored for a dumped and loaded value, with the default settings. -/

/-- The value that is stored after a dump and a load with the default settings and -array-as-json
(`json`); `none` for an error. -/
def back (json : Bool) (d : Dialect) (t ty : Str) (v : Value Bool) : Option (Value Bool) :=
  (dumpField two d (DumpOpts.run { arrayAsJSON := json }) t v).bind fun f =>
  (loadField d (LoadOpts.run {}) (fun _ => none) ty (lf f)).bind fun p =>
  (kind d (columnType d t)).bind fun k => input two.parse k p

/-- a Windows line end becomes a line feed -/
theorem crlf_refuted : back false .postgres b!"TEXT" b!"TEXT" (.str b!"a\r\nb") = some (.str b!"a\nb") := by
  decide +kernel

/-- text that is the null string becomes NULL -/
theorem nullstring_refuted : back false .mysql b!"TEXT" b!"TEXT" (.str b!"\\N") = some .null := by
  decide +kernel

/-- an empty byte string becomes NULL -/
theorem empty_bytes_refuted : back false .mysql b!"BLOB" b!"BLOB" (.bytes []) = some .null := by
  decide +kernel

/-- a time loses the fraction of a second -/
theorem fraction_refuted :
    back false .postgres b!"TIMESTAMPTZ" b!"TIMESTAMPTZ" (.time ⟨2024, 1, 2, 3, 4, 5, 678000000⟩) =
      some (.time ⟨2024, 1, 2, 3, 4, 5, 0⟩) := by
  decide +kernel

/-- a number of a NUMERIC column goes through a floating point number (here there are only the numbers
1.5 and 1e23), and is written in another way -/
theorem numeric_refuted :
    back false .postgres b!"NUMERIC" b!"NUMERIC" (.str b!"1e+23") =
      some (.str b!"100000000000000000000000") := by
  decide +kernel

/-- Any NUMERIC value comes back as the text of the floating point number that it is read as, whatever
the digits were that this loses. -/
theorem numeric_rounded {F} (fl : Floats F) (x y : Str) (z : F) (hx : fl.parse x = some z)
    (hy : fl.parse y = some z) :
    dumpField fl .postgres (DumpOpts.run {}) b!"NUMERIC" (.str x) =
      dumpField fl .postgres (DumpOpts.run {}) b!"NUMERIC" (.str y) := by
  have h : dest .postgres (DumpOpts.run {}) (columnType .postgres b!"NUMERIC") = .float := by
    decide +kernel
  simp [dumpField, h, scan, asString, hx, hy]

example : two.parse b!"1e+23" = some false ∧ two.parse b!"100000000000000000000000" = some false := by
  decide

/-- the binary columns of a table without primary key are loaded as text in MySQL -/
theorem no_pkey_refuted :
    columnTypes .mysql false [(b!"b", b!"blob")] [b!"b"] = [[]] ∧
    back false .mysql b!"BLOB" [] (.bytes b!"A") = some (.bytes b!"0x41") := by
  decide +kernel

/-- with -array-as-json a NULL array is loaded as the text `null`, which is no array -/
theorem json_null_refuted :
    back true .postgres b!"INT[]" b!"INT[]" .null = some (.str b!"null") := by
  decide +kernel

/-- with -array-as-json an empty array is loaded as the text `[]`, which is no array -/
theorem json_empty_refuted :
    back true .postgres b!"INT[]" b!"INT[]" (.str b!"{}") = some (.str b!"[]") := by
  decide +kernel

/-- with -array-as-json a line feed becomes the letter n: Postgres reads `\\n` in an array as `n` -/
theorem json_escape_refuted :
    back true .postgres b!"TEXT[]" b!"TEXT[]" (.str b!"{\"a\nb\"}") = some (.str b!"{\"a\\nb\"}") ∧
    PqArray.scanStrings b!"{\"a\nb\"}" = .ok [b!"a\nb"] ∧
    PqArray.scanStrings b!"{\"a\\nb\"}" = .ok [b!"anb"] := by
  decide +kernel

/-- the only column of a row is an empty text: the row is not loaded -/
theorem blank_row_refuted :
    ((dumpCSV two (fun _ => false) .postgres (DumpOpts.run {})
        { columns := [{ columnName := b!"x", columnType := b!"TEXT" }] } [[.str b!"a"], [.str []]]).bind
      (loadCSV .postgres (LoadOpts.run {}) (fun _ => none) true [(b!"x", b!"text")])) =
      some ([b!"x"], [[.str b!"a"]]) := by
  decide +kernel

/-- SQLite: a BOOLEAN (which the driver makes of a number) comes back as text -/
theorem sqlite_boolean_refuted :
    (dumpField two .sqlite (DumpOpts.run {}) b!"BOOLEAN" (.bool true)).bind
      (loadField .sqlite (LoadOpts.run {}) (fun _ => none) b!"BOOLEAN") = some (.str b!"true") := by
  decide +kernel

/-- SQLite: a DATE comes back with a time of the day -/
theorem sqlite_date_refuted :
    (dumpField two .sqlite (DumpOpts.run {}) b!"DATE" (.time ⟨2024, 1, 2, 0, 0, 0, 0⟩)).bind
      (loadField .sqlite (LoadOpts.run {}) (fun _ => none) b!"DATE") =
      some (.str b!"2024-01-02T00:00:00Z") := by
  decide +kernel

/-- SQLite: a text of 16 characters in a UUID column comes back as a byte string -/
theorem sqlite_uuid_refuted :
    (dumpField two .sqlite (DumpOpts.run {}) b!"UUID" (.str b!"0123456789abcdef")).bind
      (loadField .sqlite (LoadOpts.run {}) (fun _ => none) b!"UUID") =
      some (.bytes b!"0123456789abcdef") := by
  decide +kernel

/-- MySQL: a TIME column, which the driver returns as text, cannot be dumped -/
theorem mysql_time_refuted : dumpField two .mysql (DumpOpts.run {}) b!"TIME" (.bytes b!"12:00:00") = none := by
  decide +kernel

/-! ## Arrays as JSON -/

/-- the JSON array of a non-empty slice is loaded with braces for the brackets -/
theorem load_json {l : LoadOpts} {unix : Str → Option Int} {ty x : Str} (hty : hasSuffix ty b!"[]" = true)
    (hx : x ≠ []) (hn : b!"[" ++ x ++ b!"]" ≠ l.nullstring) :
    loadField .postgres l unix ty (b!"[" ++ x ++ b!"]") = some (.str (b!"{" ++ x ++ b!"}")) := by
  have hb : binaryTypes.contains ty = false := by
    rw [Bool.eq_false_iff]
    intro h
    have : ∀ y ∈ binaryTypes, hasSuffix y b!"[]" = false := by decide
    rw [this ty (List.elem_iff.1 h)] at hty
    cases hty
  have hl : 0 < x.length := List.length_pos_iff.2 hx
  unfold loadField
  rw [if_neg (by simp at hn; simp [hn]), if_neg (by simp only [hb, Bool.false_and]; simp), if_pos]
  · simp
  · exact ⟨rfl, hty, by simp; omega, by simp, List.getLast?_concat (l := '[' :: x)⟩

theorem join_ne {xs : List Str} (h : xs ≠ []) (hx : ∀ x ∈ xs, x ≠ []) : join b!"," xs ≠ [] := by
  match xs, h with
  | [a], _ => exact hx a (by simp)
  | a :: b :: r, _ =>
    have := hx a (by simp)
    simp [join, this]

theorem formatInt_ne_nil (i : Int) : formatInt i ≠ [] := by
  cases i with
  | ofNat n =>
    intro h
    have := (Nat.length_toDigits_le_iff (b := 10) (n := n) (k := 1) (by decide) (by decide))
    exact absurd h (by
      show Nat.toDigits 10 n ≠ []
      exact Nat.toDigits_ne_nil)
  | negSucc n => simp [formatInt]

/-- With -array-as-json any array of numbers that has elements comes back. -/
theorem json_ints_roundtrip {F} (fl : Floats F) (l : LoadOpts) (unix : Str → Option Int) (t : Str)
    (ht : columnType .postgres t ∈ [b!"SMALLINT[]", b!"INT[]", b!"INTEGER[]", b!"BIGINT[]"])
    (o : DumpOpts) (ho : o.arrayAsJSON = true) (xs : List Int) (hxs : xs ≠ [])
    (hr : ∀ i ∈ xs, -2 ^ 63 ≤ i ∧ i < 2 ^ 63)
    (hn : b!"[" ++ join b!"," (xs.map formatInt) ++ b!"]" ≠ l.nullstring) :
    ∃ f, dumpField fl .postgres o t (.str (PqArray.arrayText (xs.map formatInt)) : Value F) = some f ∧
      UnixText f ∧
      loadField .postgres l unix (columnType .postgres t) f =
        some (.str (PqArray.arrayText (xs.map formatInt))) := by
  generalize hN : columnType .postgres t = n at *
  have hd : dest .postgres o n = .ints := by
    have : ∀ n ∈ [b!"SMALLINT[]", b!"INT[]", b!"INTEGER[]", b!"BIGINT[]"],
        (arrayDest n).getD (scalarDest n) = .ints := by decide
    unfold dest
    rw [if_neg (by decide), if_pos ⟨rfl, ho⟩, this n ht]
  have hsuf : hasSuffix n b!"[]" = true := by
    have : ∀ n ∈ [b!"SMALLINT[]", b!"INT[]", b!"INTEGER[]", b!"BIGINT[]"], hasSuffix n b!"[]" = true := by
      decide
    exact this n ht
  have hscan := PqArray.scanInts_value xs hr
  unfold PqArray.intsValue at hscan
  refine ⟨b!"[" ++ join b!"," (xs.map formatInt) ++ b!"]", ?_, ?_, ?_⟩
  · rw [dumpField, hN, hd]
    simp only [scan, scanArray]
    rw [hscan]
    rfl
  · apply unix_of_not_cr
    intro h
    have hj : ∀ ys : List Str, (∀ y ∈ ys, '\r' ∉ y) → '\r' ∉ join b!"," ys := by
      intro ys
      induction ys with
      | nil => simp [join]
      | cons y ys ih =>
        intro hy
        cases ys with
        | nil => simpa [join] using hy y (by simp)
        | cons z ys =>
          have h1 := hy y (by simp)
          have h2 := ih fun w hw => hy w (List.mem_cons_of_mem _ hw)
          simp [join, h1] at h2 ⊢
          exact h2
    have := hj (xs.map formatInt) (by
      intro y hy
      obtain ⟨i, _, rfl⟩ := List.mem_map.1 hy
      exact formatInt_clean i)
    simp at h
    exact this h
  · rw [load_json hsuf (join_ne (by simpa using hxs) (by
      intro x hx
      obtain ⟨i, _, rfl⟩ := List.mem_map.1 hx
      exact formatInt_ne_nil i)) hn]
    rfl

/-- The characters that are the same in a JSON string and in an element of an array of Postgres. -/
theorem jsonString_eq {s : Str} (h : ∀ c ∈ s, 0x20 ≤ c.toNat ∧ c ∉ b!"<>&") :
    jsonString s = PqArray.quoteElem s := by
  unfold jsonString PqArray.quoteElem
  have hc : s.flatMap jsonChar = s.flatMap fun c => if c = '"' ∨ c = '\\' then ['\\', c] else [c] := by
    induction s with
    | nil => rfl
    | cons c s ih =>
      rw [List.flatMap_cons, List.flatMap_cons, ih fun x hx => h x (List.mem_cons_of_mem _ hx)]
      congr 1
      have hc := h c List.mem_cons_self
      unfold jsonChar
      by_cases h1 : c = '"'
      · rw [if_pos h1, if_pos (.inl h1), h1]
      rw [if_neg h1]
      by_cases h2 : c = '\\'
      · rw [if_pos h2, if_pos (.inr h2), h2]
      rw [if_neg h2, if_neg, if_neg, if_neg, if_neg, if_neg (by simp [h1, h2])]
      · rintro (h3 | h3 | h3 | h3)
        · omega
        all_goals subst h3; simp at hc
      all_goals
        rintro rfl
        exact absurd hc.1 (by decide)
  rw [hc]
  rfl

/-- With -array-as-json any array of texts that has elements comes back, if there are no control
characters and none of `<`, `>`, `&` in it. -/
theorem json_strings_roundtrip {F} (fl : Floats F) (l : LoadOpts) (unix : Str → Option Int) (t : Str)
    (ht : columnType .postgres t ∈ [b!"VARCHAR[]", b!"CHAR[]", b!"TEXT[]"])
    (o : DumpOpts) (ho : o.arrayAsJSON = true) (s : Str) (xs : List Str) (hxs : xs ≠ [])
    (hs : PqArray.scanStrings s = .ok xs)
    (hr : ∀ x ∈ xs, ∀ c ∈ x, 0x20 ≤ c.toNat ∧ c ∉ b!"<>&")
    (hn : b!"[" ++ join b!"," (xs.map jsonString) ++ b!"]" ≠ l.nullstring) :
    ∃ f p, dumpField fl .postgres o t (.str s : Value F) = some f ∧
      loadField .postgres l unix (columnType .postgres t) f = some (.str p) ∧
      PqArray.scanStrings p = .ok xs := by
  generalize hN : columnType .postgres t = n at *
  have hd : dest .postgres o n = .strings := by
    have : ∀ n ∈ [b!"VARCHAR[]", b!"CHAR[]", b!"TEXT[]"],
        (arrayDest n).getD (scalarDest n) = .strings := by decide
    unfold dest
    rw [if_neg (by decide), if_pos ⟨rfl, ho⟩, this n ht]
  have hsuf : hasSuffix n b!"[]" = true := by
    have : ∀ n ∈ [b!"VARCHAR[]", b!"CHAR[]", b!"TEXT[]"], hasSuffix n b!"[]" = true := by
      decide
    exact this n ht
  have he : xs.map jsonString = xs.map PqArray.quoteElem :=
    List.map_congr_left fun x hx => jsonString_eq (hr x hx)
  refine ⟨b!"[" ++ join b!"," (xs.map jsonString) ++ b!"]", PqArray.stringsValue xs, ?_, ?_,
    PqArray.scanStrings_value xs⟩
  · rw [dumpField, hN, hd]
    simp only [scan, scanArray]
    rw [hs]
    rfl
  · rw [load_json hsuf (join_ne (by simpa using hxs) (by
      intro x hx
      obtain ⟨i, _, rfl⟩ := List.mem_map.1 hx
      simp [jsonString])) hn, he]
    rfl

example : ∃ f, dumpField two .postgres { arrayAsJSON := true } b!"INT[]"
      (.str (PqArray.arrayText ([1, -20].map formatInt)) : Value Bool) = some f ∧ UnixText f ∧
    loadField .postgres (LoadOpts.run {}) (fun _ => none) (columnType .postgres b!"INT[]") f =
      some (.str (PqArray.arrayText ([1, -20].map formatInt))) :=
  json_ints_roundtrip two (LoadOpts.run {}) (fun _ => none) b!"INT[]" (by decide +kernel)
    { arrayAsJSON := true } rfl [1, -20] (by decide) (by decide) (by decide +kernel)

example : ∃ f p, dumpField two .postgres { arrayAsJSON := true } b!"TEXT[]"
      (.str b!"{a,\"b\\\"c\"}" : Value Bool) = some f ∧
    loadField .postgres (LoadOpts.run {}) (fun _ => none) (columnType .postgres b!"TEXT[]") f = some (.str p) ∧
    PqArray.scanStrings p = .ok [b!"a", b!"b\"c"] :=
  json_strings_roundtrip two (LoadOpts.run {}) (fun _ => none) b!"TEXT[]" (by decide +kernel)
    { arrayAsJSON := true } rfl b!"{a,\"b\\\"c\"}" [b!"a", b!"b\"c"] (by decide) (by decide +kernel)
    (by decide) (by decide +kernel)

/-! ## A dump that reports success has every row (C68) -/

/-- The file has every row that the query returned before it ended or broke off: `n` rows are in the
file if the connection broke after `n` rows. -/
theorem dump_has_returned_rows {F} (fl : Floats F) (space : Str → Bool) (d : Dialect) (o : DumpOpts)
    (t : Table) (all : List (List (Value F))) (n : Nat) (text : Str)
    (h : dumpBroken fl space d o t all n = some text) (hc : 2 ≤ (dumpedColumns t).length)
    (hr : ∀ r ∈ all, r.length = (dumpedColumns t).length) :
    (Csv.read text).length = 1 + min n all.length := by
  unfold dumpBroken dumpCSV at h
  cases hm : (all.take n).mapM fun r => ((dumpedColumns t).zip r).mapM fun p =>
      dumpField fl d o p.1.columnType p.2 with
  | none => rw [hm] at h; cases h
  | some rs =>
    rw [hm] at h
    have h := Option.some.inj h
    subst h
    have hlen : ∀ {α β : Type} (f : α → Option β) (l : List α) (ys : List β), l.mapM f = some ys →
        ys.length = l.length ∧ ∀ y ∈ ys, ∃ x ∈ l, f x = some y := by
      intro α β f l
      induction l with
      | nil =>
        intro ys h
        rw [List.mapM_nil] at h
        have h := Option.some.inj h
        subst h
        simp
      | cons a l ih =>
        intro ys h
        rw [List.mapM_cons] at h
        cases ha : f a with
        | none => rw [ha] at h; cases h
        | some y =>
          cases hl : l.mapM f with
          | none => rw [ha, hl] at h; cases h
          | some zs =>
            rw [ha, hl] at h
            have h := Option.some.inj h
            subst h
            obtain ⟨h1, h2⟩ := ih zs hl
            refine ⟨by simp [h1], fun w hw => ?_⟩
            rcases List.mem_cons.1 hw with rfl | hw
            · exact ⟨a, by simp, ha⟩
            · obtain ⟨x, hx, e⟩ := h2 w hw
              exact ⟨x, List.mem_cons_of_mem _ hx, e⟩
    obtain ⟨h1, h2⟩ := hlen _ _ _ hm
    have hvis : ∀ r : List Str, 2 ≤ r.length → Visible r := by
      intro r hr
      match r, hr with
      | x :: y :: r, _ => exact ⟨by simp, by simp⟩
    have hf : ((dumpedColumns t).map (·.columnName) :: rs).filter (fun r => decide (Visible r)) =
        (dumpedColumns t).map (·.columnName) :: rs := by
      rw [List.filter_eq_self]
      intro r hr'
      apply decide_eq_true
      rcases List.mem_cons.1 hr' with rfl | hr'
      · exact hvis _ (by simpa using hc)
      · obtain ⟨x, hx, e⟩ := h2 r hr'
        have := (hlen _ _ _ e).1
        rw [List.length_zip, hr x (List.mem_of_mem_take hx)] at this
        exact hvis _ (by omega)
    rw [Csv.read_write, hf]
    simp [h1]
    omega

/-- The table of a counterexample. -/
def pair : Table :=
  { columns := [{ columnName := b!"a", columnType := b!"TEXT" }, { columnName := b!"b", columnType := b!"TEXT" }] }

/-- A dump can report success though rows are missing: a connection that breaks after the first of two
rows gives a file with one row, and no error. -/
theorem dump_complete_refuted : ∃ text,
    dumpBroken two (fun _ => false) .postgres (DumpOpts.run {}) pair
      [[.str b!"1", .str b!"x"], [.str b!"2", .str b!"y"]] 1 = some text ∧
    text = b!"a,b\n1,x\n" := by
  refine ⟨_, ?_, rfl⟩
  decide +kernel

example : dumpBroken two (fun _ => false) .postgres (DumpOpts.run {}) pair
    [[.str b!"1", .str b!"x"], [.str b!"2", .str b!"y"]] 7 = some b!"a,b\n1,x\n2,y\n" ∧
    2 ≤ (dumpedColumns pair).length := by
  decide +kernel

/-! ## A dumped table is loaded into the table that it came from (C69) -/

theorem trimSuffix_append (s x : Str) : trimSuffix (s ++ x) x = s := by
  unfold trimSuffix
  rw [if_pos (by simp [hasSuffix])]
  simp

/-- The file of a table is loaded into the schema and table that it was dumped from, if the name of the
file has no slash and does not begin with digits and an underscore, the schema has no dot, and a table
of the current schema has no dot.

Partial: without these conditions it is false (`csv_underscore_refuted` and those after it). -/
theorem csv_table_partial (cur schema table : Str) (hname : table ≠ [])
    (hslash : '/' ∉ schema ∧ '/' ∉ table)
    (hdig : trimNumber (if schema ≠ [] ∧ schema ≠ cur then schema ++ b!"." ++ table else table) =
      if schema ≠ [] ∧ schema ≠ cur then schema ++ b!"." ++ table else table)
    (hdot : if schema ≠ [] ∧ schema ≠ cur then '.' ∉ schema else '.' ∉ table) :
    tableOf cur (csvFile cur schema table) = (if schema = [] then cur else schema, table) := by
  unfold csvFile tableOf
  by_cases h : schema ≠ [] ∧ schema ≠ cur
  · rw [if_pos h] at hdig hdot ⊢
    rw [show schema ++ b!"." ++ (table ++ b!".csv") = (schema ++ b!"." ++ table) ++ b!".csv" by simp,
      trimSuffix_append]
    dsimp only
    rw [if_neg (show schema ++ b!"." ++ table ≠ [] by simp),
      Load.baseName_noslash (schema ++ b!"." ++ table) (by simp [hslash]), hdig]
    have h1 : (schema ++ b!"." ++ table).takeWhile (· ≠ '.') = schema := by
      rw [List.append_assoc, List.takeWhile_append_of_pos (by
        intro c hc; simp; rintro rfl; exact hdot hc)]
      simp
    have h2 : (schema ++ b!"." ++ table).dropWhile (· ≠ '.') = b!"." ++ table := by
      rw [List.append_assoc, List.dropWhile_append_of_pos (by
        intro c hc; simp; rintro rfl; exact hdot hc)]
      simp
    simp only [h1, h2]
    simp [h.1]
  · rw [if_neg h] at hdig hdot ⊢
    rw [trimSuffix_append]
    dsimp only
    rw [if_neg hname, Load.baseName_noslash _ hslash.2, hdig]
    simp [hdot]
    by_cases hs : schema = []
    · simp [hs]
    · have : schema = cur := by
        by_cases e : schema = cur
        · exact e
        · exact absurd ⟨hs, e⟩ h
      simp [this]

example : tableOf b!"public" (csvFile b!"public" b!"app" b!"user_2") = (b!"app", b!"user_2") :=
  csv_table_partial b!"public" b!"app" b!"user_2" (by simp) (by decide) (by decide) (by decide)

/-- a table whose name begins with an underscore -/
theorem csv_underscore_refuted :
    tableOf b!"public" (csvFile b!"public" [] b!"_prisma_migrations") = (b!"public", b!"prisma_migrations") := by
  decide

/-- a table whose name begins with digits and an underscore -/
theorem csv_number_refuted :
    tableOf b!"public" (csvFile b!"public" [] b!"2024_data") = (b!"public", b!"data") := by
  decide

/-- a table with a dot in its name -/
theorem csv_dot_refuted :
    tableOf b!"public" (csvFile b!"public" b!"public" b!"v1.users") = (b!"v1", b!"users") := by
  decide

/-- two tables with the same file: the second one overwrites the first -/
theorem csv_same_file_refuted :
    csvFile b!"public" b!"public" b!"app.users" = csvFile b!"public" b!"app" b!"users" := by
  decide

/-- Tables without dots in their schema, and in their name if they are in the current schema, have
different files. -/
theorem csvFile_injective (cur s t s' t' : Str) (hs : if s ≠ [] ∧ s ≠ cur then '.' ∉ s else '.' ∉ t)
    (hs' : if s' ≠ [] ∧ s' ≠ cur then '.' ∉ s' else '.' ∉ t')
    (h : csvFile cur s t = csvFile cur s' t') :
    (if s = [] then cur else s) = (if s' = [] then cur else s') ∧ t = t' := by
  have cut : ∀ (a b c d : Str), '.' ∉ a → '.' ∉ c → a ++ '.' :: b = c ++ '.' :: d → a = c ∧ b = d := by
    intro a b c d ha hc e
    rcases List.append_eq_append_iff.1 e with ⟨x, h1, h2⟩ | ⟨x, h1, h2⟩
    · cases x with
      | nil => simp at h1 h2; exact ⟨h1.symm, h2⟩
      | cons y x => simp at h2; exact absurd (by rw [h1, ← h2.1]; simp) hc
    · cases x with
      | nil => simp at h1 h2; exact ⟨h1, h2.symm⟩
      | cons y x => simp at h2; exact absurd (by rw [h1, ← h2.1]; simp) ha
  unfold csvFile at h
  by_cases h1 : s ≠ [] ∧ s ≠ cur <;> by_cases h2 : s' ≠ [] ∧ s' ≠ cur
  · rw [if_pos h1] at h hs
    rw [if_pos h2] at h hs'
    obtain ⟨e1, e2⟩ := cut s (t ++ b!".csv") s' (t' ++ b!".csv") hs hs' (by simpa using h)
    rw [e1, List.append_cancel_right e2]
    exact ⟨rfl, rfl⟩
  · rw [if_pos h1] at h hs
    rw [if_neg h2] at h hs'
    obtain ⟨_, e2⟩ := cut s (t ++ b!".csv") t' b!"csv" hs hs' (by simpa using h)
    have := congrArg List.length e2
    simp at this
  · rw [if_neg h1] at h hs
    rw [if_pos h2] at h hs'
    obtain ⟨_, e2⟩ := cut t b!"csv" s' (t' ++ b!".csv") hs hs' (by simpa using h)
    have := congrArg List.length e2
    simp at this
  · rw [if_neg h1] at h
    rw [if_neg h2] at h
    have hc : ∀ s : Str, ¬ (s ≠ [] ∧ s ≠ cur) → (if s = [] then cur else s) = cur := by
      intro s hs
      by_cases e : s = []
      · rw [if_pos e]
      · rw [if_neg e]
        by_cases e' : s = cur
        · exact e'
        · exact absurd ⟨e, e'⟩ hs
    rw [hc s h1, hc s' h2]
    exact ⟨rfl, List.append_cancel_right h⟩

example : csvFile b!"public" b!"app" b!"a.b" ≠ csvFile b!"public" [] b!"users" := by decide

end Sqddl.DumpCsv
