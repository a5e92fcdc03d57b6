import Verif.Props.SubsetFields
import Verif.Props.SubsetLimits

/-!
# Samples for C102, and where it fails
-/

namespace SelectSpec
open Go SqlSpec DdlText Sqddl Sqddl.Subset SubsetSpec

/-- Upper and lower case are the same. -/
def caseless (a b : Str) : Bool := toLower a == toLower b

theorem caseless_compares : Compares caseless :=
  ⟨fun a => by simp [caseless], fun a b h => by
    simp only [caseless, beq_iff_eq] at h ⊢; exact h.symm, fun a b h => by simpa [caseless] using h⟩

/-- Names that do not end in an underscore are free. -/
theorem free_of {t : TableID} (h : (toLower t.2).getLast? ≠ some '_') : Free caseless t := by
  refine ⟨fun n => ?_, ?_⟩
  · cases e : caseless (resultName n).2 t.2 with
    | false => rfl
    | true =>
      have := caseless_compares.lower _ _ e
      rw [(result_fixed n).lower] at this
      rw [← this] at h
      refine absurd ?_ h
      rw [resultName]; dsimp only; rw [List.getLast?_append]; rfl
  · cases e : caseless b!"pkey_" t.2 with
    | false => rfl
    | true =>
      have := caseless_compares.lower _ _ e
      rw [← this] at h
      exact absurd (by decide) h

/-- The customer of an order. -/
def orderKey : Fkey := ⟨[], (b!"shop", b!"order"), [b!"customer"], (b!"shop", b!"customer"), [b!"Id"]⟩

/-- The order of an item. -/
def itemKey : Fkey := ⟨[], (b!"shop", b!"item"), [b!"order_year", b!"order_no"], (b!"shop", b!"order"), [b!"year", b!"no"]⟩

/-- Orders. -/
def orders : Sqddl.Subset.Table := ⟨(b!"shop", b!"order"), some [b!"year", b!"no"], [orderKey]⟩

/-- Items of orders. -/
def items : Sqddl.Subset.Table := ⟨(b!"shop", b!"item"), some [b!"id"], [itemKey]⟩

/-- Items of orders of customers. -/
def shop : Cat := ⟨[orders, ⟨(b!"shop", b!"customer"), some [b!"Id"], []⟩, items]⟩

/-- Two items and one order. -/
def wishes : List Request := [⟨false, items, [b!"id"], [[b!"7"], [b!"-8"]]⟩,
  ⟨false, orders, [b!"year", b!"no"], [[b!"1999", b!"'it''s, 5'"]]⟩]

instance (d : Dialect) (f : Str) : Decidable (FieldOk d f) := by unfold FieldOk; infer_instance

example : Cat.Ok shop ∧ Cat.Closed shop ∧ Names .postgres caseless shop ∧
    ∀ q ∈ wishes, RequestOk .postgres shop q ∧ q.extended = false ∧ Treelike shop q.base.id := by
  refine ⟨⟨by decide +kernel, by decide +kernel, by decide +kernel⟩, by unfold Cat.Closed; decide +kernel,
    ⟨by decide +kernel, by unfold Apart; decide +kernel, ?_, by decide +kernel⟩, ?_⟩
  · have : ∀ t ∈ shop.tables, (toLower t.id.2).getLast? ≠ some '_' := by decide +kernel
    exact fun t ht => free_of (this t ht)
  · have h1 : ∀ q ∈ wishes, q.base ∈ shop.tables ∧ q.base.pkey = some q.pkey := by decide +kernel
    have h2 : ∀ q ∈ wishes, (q.pkey ≠ [] ∧ ∀ c ∈ q.pkey, PlainName .postgres c) ∧ q.records ≠ [] ∧
      (∀ r ∈ q.records, r.length = q.pkey.length ∧ ∀ f ∈ r, FieldOk .postgres f) := by decide +kernel
    have h3 : ∀ q ∈ wishes, q.extended = false := by decide +kernel
    have h5 : ∀ f ∈ shop.fkeys, ∀ g ∈ shop.fkeys, f.refTable = g.refTable → f ≠ g →
      ∀ h ∈ shop.fkeys, h.table ≠ f.refTable := by decide +kernel
    have h6 : ∀ f ∈ shop.fkeys, f.refTable ≠ (b!"shop", b!"item") := by decide +kernel
    intro q hq
    refine ⟨⟨⟨(h1 q hq).1, (h1 q hq).2⟩, (h2 q hq).1.1, (h2 q hq).1.2, (h2 q hq).2.1, (h2 q hq).2.2⟩, h3 q hq, ?_,
      fun f hf g hg _ _ => h5 f hf g hg⟩
    intro f hf hr e
    have hb : q.base.id = (b!"shop", b!"item") ∨ q.base.id = (b!"shop", b!"order") := by
      have : ∀ q ∈ wishes, q.base.id = (b!"shop", b!"item") ∨ q.base.id = (b!"shop", b!"order") := by decide +kernel
      exact this q hq
    rcases hb with hb | hb
    · exact h6 f hf (e.trans hb)
    · rw [hb] at hr e
      have key : ∀ t, Reach shop (b!"shop", b!"order") t → t ≠ (b!"shop", b!"item") := by
        intro t h
        cases h with
        | base => decide
        | ref f hf _ => exact h6 f hf
      have : f.table = (b!"shop", b!"item") := by
        have : ∀ f ∈ shop.fkeys, f.refTable = (b!"shop", b!"order") → f.table = (b!"shop", b!"item") := by decide +kernel
        exact this f hf e
      exact key _ hr this

/-- The query of the orders. -/
example : ((Subsetter.run shop wishes).bind fun ss => ss.query .postgres (b!"shop", b!"order") [b!"year", b!"no"]
      [b!"year", b!"no", b!"customer"]) =
    some b!"WITH query1_ (id) AS (\n    VALUES (7),(-8)\n)\n,query2_ (year, no) AS (\n    VALUES (1999, 'it''s, 5')\n)\n,pkey_ (year, no) AS (\n    SELECT DISTINCT shop.\"order\".year, shop.\"order\".no\n    FROM shop.\"order\"\n    JOIN shop.item ON shop.item.order_year = shop.\"order\".year AND shop.item.order_no = shop.\"order\".no\n    JOIN query1_ ON query1_.id = shop.item.id\n    UNION\n    SELECT DISTINCT shop.\"order\".year, shop.\"order\".no\n    FROM shop.\"order\"\n    JOIN query2_ ON query2_.year = shop.\"order\".year AND query2_.no = shop.\"order\".no\n)\nSELECT shop.\"order\".year\n    ,shop.\"order\".no\n    ,shop.\"order\".customer\nFROM shop.\"order\"\nJOIN pkey_ ON pkey_.year = shop.\"order\".year AND pkey_.no = shop.\"order\".no\nORDER BY shop.\"order\".year, shop.\"order\".no\n;" := by
  decide +kernel

/-- The keys of a row are literals that can be listed. -/
example : SubsetQuerySpec.AreRows LiteralSpec.halves .mysql [b!"BIGINT", b!"VARCHAR"] [[.bytes b!"7", .bytes b!"it's, (ok)"]]
      [[(.int, .int 7), (.text, .text b!"it's, (ok)")]] ∧
    FloatField LiteralSpec.halves .mysql (.float 3) :=
  ⟨⟨⟨by decide +kernel, trivial, by decide +kernel, ⟨SubsetQuerySpec.noPair (by decide +kernel), by decide, by decide⟩, trivial⟩, trivial⟩,
    show FieldOk .mysql _ by decide +kernel⟩

/-! ## Names that are taken -/

/-- A subset of the table `pkey_`. -/
def keyTable : Request := ⟨false, tbl b!"pkey_" [], [b!"id"], [[b!"1"]]⟩

/-- What is read of its query. -/
def keyQuery : Query :=
  ⟨[⟨b!"query1_", [b!"id"], .values [[[.word b!"1"]]]⟩,
    ⟨b!"pkey_", [b!"id"], .union [⟨[⟨(none, b!"pkey_"), b!"id"⟩], (none, b!"pkey_"),
      [⟨(none, b!"query1_"), [(⟨(none, b!"query1_"), b!"id"⟩, ⟨(none, b!"pkey_"), b!"id"⟩)]⟩]⟩]⟩],
   ⟨[⟨(none, b!"pkey_"), b!"id"⟩], (none, b!"pkey_"),
    [⟨(none, b!"pkey_"), [(⟨(none, b!"pkey_"), b!"id"⟩, ⟨(none, b!"pkey_"), b!"id"⟩)]⟩]⟩,
   [⟨(none, b!"pkey_"), b!"id"⟩]⟩

/-- C102 fails for a table `pkey_` without schema: the keys are selected from themselves, and it is not clear
which of the two tables a column belongs to.  The database refuses the query. -/
theorem subset_pkey_refuted : ∃ text, ((Subsetter.run ⟨[keyTable.base]⟩ [keyTable]).bind fun ss =>
      ss.query .sqlite (tid b!"pkey_") [b!"id"] [b!"id"]) = some text ∧
    queryOf .sqlite (keywords .sqlite) text = some keyQuery ∧ ∀ same, Compares same → ¬ Valid same keyQuery := by
  refine ⟨_, (by decide +kernel : _ = some b!"WITH query1_ (id) AS (\n    VALUES (1)\n)\n,pkey_ (id) AS (\n    SELECT DISTINCT pkey_.id\n    FROM pkey_\n    JOIN query1_ ON query1_.id = pkey_.id\n)\nSELECT pkey_.id\nFROM pkey_\nJOIN pkey_ ON pkey_.id = pkey_.id\nORDER BY pkey_.id\n;"),
    by decide +kernel, ?_⟩
  intro same hs h
  have := (h.ctes _ (List.mem_cons_of_mem _ (List.mem_cons_self ..)) _ (List.mem_cons_self ..)).2.2 (none, b!"pkey_")
    (List.mem_cons_self ..) rfl
  rw [hs.refl] at this
  cases this

/-- A table that refers to a table `query1_`. -/
def callers : Cat := ⟨[tbl b!"a" [fk b!"a" b!"q" b!"query1_"], tbl b!"query1_" []]⟩

/-- A subset of it. -/
def callerRows : Request := ⟨false, tbl b!"a" [fk b!"a" b!"q" b!"query1_"], [b!"id"], [[b!"1"]]⟩

/-- What is read of the query of `query1_`. -/
def resultQuery : Query :=
  ⟨[⟨b!"query1_", [b!"id"], .values [[[.word b!"1"]]]⟩,
    ⟨b!"pkey_", [b!"id"], .union [⟨[⟨(none, b!"query1_"), b!"id"⟩], (none, b!"query1_"),
      [⟨(none, b!"a"), [(⟨(none, b!"a"), b!"q"⟩, ⟨(none, b!"query1_"), b!"id"⟩)]⟩,
       ⟨(none, b!"query1_"), [(⟨(none, b!"query1_"), b!"id"⟩, ⟨(none, b!"a"), b!"id"⟩)]⟩]⟩]⟩],
   ⟨[⟨(none, b!"query1_"), b!"id"⟩], (none, b!"query1_"),
    [⟨(none, b!"pkey_"), [(⟨(none, b!"pkey_"), b!"id"⟩, ⟨(none, b!"query1_"), b!"id"⟩)]⟩]⟩,
   [⟨(none, b!"query1_"), b!"id"⟩]⟩

/-- C102 fails for a table with the name of a result: it is in the FROM clause twice. -/
theorem subset_result_refuted : ∃ text, ((Subsetter.run callers [callerRows]).bind fun ss =>
      ss.query .sqlite (tid b!"query1_") [b!"id"] [b!"id"]) = some text ∧
    queryOf .sqlite (keywords .sqlite) text = some resultQuery ∧ ∀ same, Compares same → ¬ Valid same resultQuery := by
  refine ⟨_, (by decide +kernel : _ = some b!"WITH query1_ (id) AS (\n    VALUES (1)\n)\n,pkey_ (id) AS (\n    SELECT DISTINCT query1_.id\n    FROM query1_\n    JOIN a ON a.q = query1_.id\n    JOIN query1_ ON query1_.id = a.id\n)\nSELECT query1_.id\nFROM query1_\nJOIN pkey_ ON pkey_.id = query1_.id\nORDER BY query1_.id\n;"),
    by decide +kernel, ?_⟩
  intro same hs h
  have := (h.ctes _ (List.mem_cons_of_mem _ (List.mem_cons_self ..)) _ (List.mem_cons_self ..)).2.1.2 _ (List.mem_cons_self ..)
  unfold Resolves at this
  simp only [Sel.items, List.map_cons, List.map_nil, List.filter_cons, Means, Option.elim_none, Bool.and_true, hs.refl,
    if_true, List.filter_nil, List.length_cons, List.length_nil] at this
  split at this <;> simp at this

end SelectSpec
