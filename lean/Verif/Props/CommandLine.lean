import Verif.Lemmas.CommandLine

/-!
# C106: what a command line means
-/

namespace Sqddl.CommandLine
open LineSpec

/-! ## The flags of the subcommands -/

/-- the name of a subcommand -/
def nameOf : Sub → Str
  | .migrate => b!"migrate"
  | .ls => b!"ls"
  | .touch => b!"touch"
  | .rm => b!"rm"
  | .mv => b!"mv"
  | .tables => b!"tables"
  | .views => b!"views"
  | .generate => b!"generate"
  | .wipe => b!"wipe"
  | .dump => b!"dump"
  | .load => b!"load"
  | .automigrate => b!"automigrate"

theorem subOf_nameOf (s : Sub) : subOf (nameOf s) = some s := by cases s <;> decide

theorem subOf_some {w : Str} {s : Sub} (h : subOf w = some s) : w = nameOf s := by
  unfold subOf at h
  by_cases h0 : w = b!"migrate"
  · rw [if_pos h0] at h
    exact h0.trans (congrArg nameOf (Option.some.inj h))
  rw [if_neg h0] at h
  by_cases h1 : w = b!"ls"
  · rw [if_pos h1] at h
    exact h1.trans (congrArg nameOf (Option.some.inj h))
  rw [if_neg h1] at h
  by_cases h2 : w = b!"touch"
  · rw [if_pos h2] at h
    exact h2.trans (congrArg nameOf (Option.some.inj h))
  rw [if_neg h2] at h
  by_cases h3 : w = b!"rm"
  · rw [if_pos h3] at h
    exact h3.trans (congrArg nameOf (Option.some.inj h))
  rw [if_neg h3] at h
  by_cases h4 : w = b!"mv"
  · rw [if_pos h4] at h
    exact h4.trans (congrArg nameOf (Option.some.inj h))
  rw [if_neg h4] at h
  by_cases h5 : w = b!"tables"
  · rw [if_pos h5] at h
    exact h5.trans (congrArg nameOf (Option.some.inj h))
  rw [if_neg h5] at h
  by_cases h6 : w = b!"views"
  · rw [if_pos h6] at h
    exact h6.trans (congrArg nameOf (Option.some.inj h))
  rw [if_neg h6] at h
  by_cases h7 : w = b!"generate"
  · rw [if_pos h7] at h
    exact h7.trans (congrArg nameOf (Option.some.inj h))
  rw [if_neg h7] at h
  by_cases h8 : w = b!"wipe"
  · rw [if_pos h8] at h
    exact h8.trans (congrArg nameOf (Option.some.inj h))
  rw [if_neg h8] at h
  by_cases h9 : w = b!"dump"
  · rw [if_pos h9] at h
    exact h9.trans (congrArg nameOf (Option.some.inj h))
  rw [if_neg h9] at h
  by_cases h10 : w = b!"load"
  · rw [if_pos h10] at h
    exact h10.trans (congrArg nameOf (Option.some.inj h))
  rw [if_neg h10] at h
  by_cases h11 : w = b!"automigrate"
  · rw [if_pos h11] at h
    exact h11.trans (congrArg nameOf (Option.some.inj h))
  rw [if_neg h11] at h
  cases h

theorem subOf_none {w : Str} (h : subOf w = none) : w ∉ subcommands := by
  intro hm
  have : ∀ x ∈ subcommands, (subOf x).isSome := by decide
  have := this w hm
  rw [h] at this
  cases this

theorem name_mem (s : Sub) : nameOf s ∈ subcommands := by cases s <;> decide

theorem sub_of_mem {w : Str} (h : w ∈ subcommands) : ∃ s, nameOf s = w := by
  cases e : subOf w with
  | none => exact absurd h (subOf_none e)
  | some s => exact ⟨s, (subOf_some e).symm⟩

theorem operand_name (s : Sub) : Operand (nameOf s) := by
  right; cases s <;> decide

theorem matches_of {flags : List Flag} {table : List (Str × Takes)}
    (h1 : ∀ f ∈ flags, kindIn table f.name = some (takes f.kind))
    (h2 : ∀ x ∈ table, (flags.find? (fun f => f.name == x.1)).isSome)
    (h3 : ∀ f ∈ flags, plain f.name = true) : Matches flags table := by
  refine ⟨fun n => ?_, h3⟩
  cases hf : flags.find? (fun f => f.name == n) with
  | some f =>
    have hn : f.name = n := by simpa using List.find?_some hf
    rw [← hn]
    exact (h1 f (List.mem_of_find?_eq_some hf)).symm
  | none =>
    unfold kindIn
    cases hx : table.find? (fun x => x.1 == n) with
    | none => rfl
    | some x =>
      have hn : x.1 = n := by simpa using List.find?_some hx
      have := h2 x (List.mem_of_find?_eq_some hx)
      rw [hn, hf] at this
      cases this

theorem matches_main : Matches mainFlags globals := matches_of (by decide) (by decide) (by decide)

theorem matches_sub (s : Sub) : Matches (flagsOf s) (flagsFor (nameOf s)) := by
  cases s <;> exact matches_of (by decide) (by decide) (by decide)

theorem globals_in (s : Sub) : ∀ n k, kindIn globals n = some k → kindIn (flagsFor (nameOf s)) n = some k := by
  intro n k h
  unfold kindIn flagsFor at *
  rw [List.find?_append]
  cases hx : globals.find? (fun x => x.1 == n) with
  | none => rw [hx] at h; cases h
  | some x => rw [hx] at h; exact h

theorem Writes.mono {isInt : Str → Bool} {t t' : List (Str × Takes)}
    (h : ∀ n k, kindIn t n = some k → kindIn t' n = some k) {ss l} (w : Writes isInt t ss l) :
    Writes isInt t' ss l := by
  induction w with
  | nil => exact .nil
  | apart two n v k hk hs hv _ ih => exact .apart two n v k (h n k hk) hs hv ih
  | joined two n v k hk hv _ ih => exact .joined two n v k (h n k hk) hv ih
  | bare two n hk _ ih => exact .bare two n (h n _ hk) ih

theorem defaults_ok (s : Sub) : ∀ f ∈ flagsOf s,
    unused (nameOf s) f.name = true ∨ f.default = defaultOf (nameOf s) f.name := by
  cases s <;> decide

theorem appended_eq (ss : List (Str × Str)) (n : Str) : appended ss n = settingsOf n ss := by
  induction ss with
  | nil => rfl
  | cons x ss ih =>
    simp only [appended, settingsOf] at ih ⊢
    by_cases h : x.1 = n
    · simp [List.filterMap_cons, h, ih]
    · simp [List.filterMap_cons, h, ih]

theorem find_last (ss : List (Str × Str)) (n : Str) :
    (ss.reverse.find? (fun x => x.1 == n)).map (·.2) = lastOf n ss := by
  rw [← List.head?_filter, List.filter_reverse, List.head?_reverse, lastOf, settingsOf,
    List.getLast?_map]

theorem varOf_eq (s : Sub) (ss : List (Str × Str)) (n : Str) (t : Takes)
    (hk : kindIn (flagsFor (nameOf s)) n = some t) (hu : unused (nameOf s) n = false) :
    varOf (flagsOf s) ss n = meant (nameOf s) ss n := by
  have hl := find_last ss n
  unfold varOf meant
  rw [← hl]
  cases hf : ss.reverse.find? (fun x => x.1 == n) with
  | some x => rfl
  | none =>
    obtain ⟨f, hf', _, _⟩ := (matches_sub s).find hk
    have hn : f.name = n := by simpa using List.find?_some hf'
    dsimp only
    rw [hf']
    rcases defaults_ok s f (List.mem_of_find?_eq_some hf') with h | h
    · rw [hn, hu] at h; cases h
    · rw [hn] at h; exact h

/-! ## The command that is run -/

/-- The command is the one that was asked for: every flag has the value it was given last or its
default, the file names are those given, and the database is the one that `-db` names. -/
structure Means (env : Env) (c : Command) (sub : Str) (ss : List (Str × Str)) (names : List Str) :
    Prop where
  name : nameOf c.sub = sub
  value : ∀ n t, kindIn (flagsFor sub) n = some t → unused sub n = false →
    c.value n = meant sub ss n
  values : ∀ n, c.values n = settingsOf n ss
  names : c.names = (namesFor sub names).map (fun f => normalizeFilename f (meant sub ss b!"dir"))
  conn : sub ≠ b!"generate" → c.conn = env.dsn (meant sub ss b!"db")

/-- What a subcommand cannot do without: a database that can be opened, the directory of the
migrations for `migrate` and `ls`, and delays that can be read. -/
structure Usable (env : Env) (sub : Str) (ss : List (Str × Str)) : Prop where
  db : sub ≠ b!"generate" → meant sub ss b!"db" ≠ [] ∧
    ∃ t, env.dsn (meant sub ss b!"db") = some t ∧ env.opens t = true
  dir : sub = b!"migrate" ∨ sub = b!"ls" → meant sub ss b!"dir" ≠ []
  delays : sub = b!"migrate" ∨ sub = b!"automigrate" →
    ∀ n ∈ [b!"lock-timeout", b!"max-delay", b!"base-delay"],
      meant sub ss n = [] ∨ env.isDuration (meant sub ss n) = true

/-- The catalogs that `generate` and `automigrate` are given can be read. -/
def Readable (sources : Command → Bool) (sub : Str) (c : Command) : Prop :=
  sub = b!"generate" ∨ sub = b!"automigrate" → sources c = true

theorem kind_db (s : Sub) : kindIn (flagsFor (nameOf s)) b!"db" = some .text := by cases s <;> decide

theorem namesOf_eq (s : Sub) (ss : List (Str × Str)) (rest : List Str) :
    namesOf s (varOf (flagsOf s) ss b!"dir") rest =
      (namesFor (nameOf s) rest).map (fun f => normalizeFilename f (meant (nameOf s) ss b!"dir")) := by
  have key : kindIn (flagsFor (nameOf s)) b!"dir" = some .text →
      varOf (flagsOf s) ss b!"dir" = meant (nameOf s) ss b!"dir" :=
    fun h => varOf_eq s ss _ _ h (by cases s <;> decide)
  cases s
  case migrate => rw [key (by decide)]; rfl
  case touch => rw [key (by decide)]; rfl
  case rm => rw [key (by decide)]; rfl
  case load => rw [key (by decide)]; rfl
  case mv => rw [key (by decide)]; rfl
  all_goals rfl

/-- what is made of arguments that were read -/
theorem command_eq (env : Env) (sources : Command → Bool) (s : Sub) (args : List Str)
    (ss : List (Str × Str)) (rest : List Str) (h : parse env (flagsOf s) args = .ok ss rest) :
    ∃ c, Means env c (nameOf s) ss rest ∧
      ((Usable env (nameOf s) ss ∧ Readable sources (nameOf s) c ∧
          command env sources s args = .ok c) ∨
       (¬ (Usable env (nameOf s) ss ∧ Readable sources (nameOf s) c) ∧
          command env sources s args = .error)) := by
  have hdb := varOf_eq s ss b!"db" .text (kind_db s) (by cases s <;> decide)
  have hnames := namesOf_eq s ss rest
  have name_iff : ∀ s', nameOf s = nameOf s' ↔ s = s' := by
    intro s'
    constructor
    · intro e
      have := subOf_nameOf s
      rw [e, subOf_nameOf] at this
      exact (Option.some.inj this).symm
    · intro e; rw [e]
  have hm : ∀ conn, (nameOf s ≠ b!"generate" → conn = env.dsn (meant (nameOf s) ss b!"db")) →
      Means env ⟨s, varOf (flagsOf s) ss, appended ss, conn,
        namesOf s (varOf (flagsOf s) ss b!"dir") rest⟩ (nameOf s) ss rest :=
    fun conn hc => ⟨rfl, fun n t hk hu => varOf_eq s ss n t hk hu, fun n => appended_eq ss n,
      hnames, hc⟩
  unfold command
  rw [h]
  dsimp only
  by_cases hg : s = .generate
  · have hgn : nameOf s = b!"generate" := by rw [hg]; rfl
    rw [if_pos hg]
    refine ⟨_, hm none (fun h => absurd hgn h), ?_⟩
    have hu : Usable env (nameOf s) ss :=
      ⟨fun h => absurd hgn h, fun h => (by rw [hgn] at h; rcases h with h | h <;> cases h),
        fun h => (by rw [hgn] at h; rcases h with h | h <;> cases h)⟩
    by_cases hs : sources ⟨s, varOf (flagsOf s) ss, appended ss, none,
        namesOf s (varOf (flagsOf s) ss b!"dir") rest⟩ = true
    · rw [if_pos hs]
      exact .inl ⟨hu, fun _ => hs, rfl⟩
    · rw [if_neg hs]
      exact .inr ⟨fun h => hs (h.2 (.inl hgn)), rfl⟩
  · have hgn : nameOf s ≠ b!"generate" := fun e => hg ((name_iff .generate).mp e)
    rw [if_neg hg]
    refine ⟨_, hm (env.dsn (meant (nameOf s) ss b!"db")) (fun _ => rfl), ?_⟩
    rw [hdb]
    by_cases h1 : meant (nameOf s) ss b!"db" = []
    · rw [if_pos h1]
      exact .inr ⟨fun h => (h.1.db hgn).1 h1, rfl⟩
    rw [if_neg h1]
    by_cases h2 : (s = .migrate ∨ s = .ls) ∧ varOf (flagsOf s) ss b!"dir" = []
    · rw [if_pos h2]
      refine .inr ⟨fun h => h.1.dir ?_ ?_, rfl⟩
      · rcases h2.1 with e | e <;> rw [e]
        · exact .inl rfl
        · exact .inr rfl
      · rw [← varOf_eq s ss b!"dir" .text (by rcases h2.1 with e | e <;> rw [e] <;> decide)
          (by rcases h2.1 with e | e <;> rw [e] <;> decide)]
        exact h2.2
    rw [if_neg h2]
    have hdir : nameOf s = b!"migrate" ∨ nameOf s = b!"ls" → meant (nameOf s) ss b!"dir" ≠ [] := by
      intro hn e
      have hs : s = .migrate ∨ s = .ls := hn.imp (name_iff .migrate).mp (name_iff .ls).mp
      refine h2 ⟨hs, ?_⟩
      rw [varOf_eq s ss b!"dir" .text (by rcases hs with e | e <;> rw [e] <;> decide)
          (by rcases hs with e | e <;> rw [e] <;> decide)]
      exact e
    cases hd : env.dsn (meant (nameOf s) ss b!"db") with
    | none =>
      refine .inr ⟨fun h => ?_, rfl⟩
      obtain ⟨_, t, ht, _⟩ := h.1.db hgn
      rw [hd] at ht; cases ht
    | some t =>
      dsimp only
      by_cases h3 : env.opens t = true
      · rw [if_pos h3]
        have hdel : (s = .migrate ∨ s = .automigrate) →
            (durationsOk env (varOf (flagsOf s) ss) = true ↔
              ∀ n ∈ [b!"lock-timeout", b!"max-delay", b!"base-delay"],
                meant (nameOf s) ss n = [] ∨ env.isDuration (meant (nameOf s) ss n) = true) := by
          intro hs
          have e : ∀ n ∈ [b!"lock-timeout", b!"max-delay", b!"base-delay"],
              varOf (flagsOf s) ss n = meant (nameOf s) ss n := by
            intro n hn
            simp only [List.mem_cons, List.not_mem_nil, or_false] at hn
            rcases hs with rfl | rfl <;> rcases hn with rfl | rfl | rfl <;>
              exact varOf_eq _ ss _ .text (by decide) (by decide)
          unfold durationsOk
          rw [List.all_eq_true]
          constructor
          · intro h n hn
            have := h n hn
            rw [e n hn] at this
            simpa using this
          · intro h n hn
            have := h n hn
            rw [e n hn]
            simpa using this
        have hu : (¬ ((s = .migrate ∨ s = .automigrate) ∧ ¬ durationsOk env (varOf (flagsOf s) ss) = true)) →
            Usable env (nameOf s) ss := by
          intro h4
          refine ⟨fun _ => ⟨h1, t, hd, h3⟩, hdir, fun hn => ?_⟩
          have hs : s = .migrate ∨ s = .automigrate :=
            hn.imp (name_iff .migrate).mp (name_iff .automigrate).mp
          exact (hdel hs).mp (Decidable.byContradiction fun e => h4 ⟨hs, e⟩)
        by_cases h5 : s = .automigrate ∧ ¬ sources ⟨s, varOf (flagsOf s) ss, appended ss, some t,
            namesOf s (varOf (flagsOf s) ss b!"dir") rest⟩ = true
        · rw [if_pos h5]
          exact .inr ⟨fun h => h5.2 (h.2 (.inr (by rw [h5.1]; rfl))), rfl⟩
        · rw [if_neg h5]
          by_cases h4 : (s = .migrate ∨ s = .automigrate) ∧
              ¬ durationsOk env (varOf (flagsOf s) ss) = true
          · rw [if_pos h4]
            refine .inr ⟨fun h => h4.2 ((hdel h4.1).mpr (h.1.delays ?_)), rfl⟩
            rcases h4.1 with e | e <;> rw [e]
            · exact .inl rfl
            · exact .inr rfl
          · rw [if_neg h4]
            refine .inl ⟨hu h4, fun hn => ?_, rfl⟩
            rcases hn with hn | hn
            · exact absurd hn hgn
            · have hs := (name_iff .automigrate).mp hn
              exact Decidable.byContradiction fun e => h5 ⟨hs, e⟩
      · rw [if_neg h3]
        refine .inr ⟨fun h => ?_, rfl⟩
        obtain ⟨_, t', ht, ho⟩ := h.1.db hgn
        rw [hd] at ht; cases ht
        exact h3 ho

/-! ## The command line -/

/-- what main does once the global flags are read -/
theorem main_eq (env : Env) (sources run : Command → Bool) {g : List Str} {gs : List (Str × Str)}
    (hg : Writes env.isInt globals gs g) (s : Sub) (rest : List Str) :
    main env sources run (g ++ nameOf s :: rest) =
      match command env sources s (g ++ rest) with
      | .help => ⟨none, 0⟩
      | .error => ⟨none, 1⟩
      | .ok c => ⟨some c, if run c then 0 else 1⟩ := by
  have hp : parse env mainFlags (g ++ nameOf s :: rest) = .ok gs (nameOf s :: rest) :=
    parse_ok_of matches_main hg (.inl ⟨rfl, fun s' e => by cases e; exact operand_name s⟩)
  have hn : (g ++ nameOf s :: rest).take ((g ++ nameOf s :: rest).length - (rest.length + 1)) = g := by
    have : (g ++ nameOf s :: rest).length - (rest.length + 1) = g.length := by simp
    rw [this]; simp
  unfold main
  rw [hp]
  dsimp only
  rw [subOf_nameOf, hn]
  rfl

/-- **C106**, the command lines of the usage texts: global flags, a subcommand, flags in any of
their notations, file names.  The subcommand runs with every flag set to what was written last, in
front of or behind the subcommand, and with the file names; the exit status tells whether it
failed.  If something it needs is missing nothing is run and the exit status is 1. -/
theorem line_runs_partial (env : Env) (sources run : Command → Bool) {args : List Str} {sub : Str}
    {ss : List (Str × Str)} {names : List Str} (hs : sub ∈ subcommands)
    (h : Line env.isInt args sub ss names) :
    ∃ c, Means env c sub ss names ∧
      ((Usable env sub ss ∧ Readable sources sub c ∧
          main env sources run args = ⟨some c, if run c then 0 else 1⟩) ∨
       (¬ (Usable env sub ss ∧ Readable sources sub c) ∧ main env sources run args = ⟨none, 1⟩)) := by
  obtain ⟨s, rfl⟩ := sub_of_mem hs
  obtain ⟨g, gs, l, ls, w, hg, hl, hw, rfl, rfl⟩ := h
  have hp : parse env (flagsOf s) (g ++ (l ++ w)) = .ok (gs ++ ls) names := by
    rw [parse_writes (matches_sub s) (Writes.mono (globals_in s) hg),
      parse_ok_of (matches_sub s) hl hw]
    rfl
  obtain ⟨c, hm, hc⟩ := command_eq env sources s (g ++ (l ++ w)) (gs ++ ls) names hp
  refine ⟨c, hm, ?_⟩
  rw [main_eq env sources run hg s (l ++ w)]
  rcases hc with ⟨hu, hr, e⟩ | ⟨hn, e⟩
  · exact .inl ⟨hu, hr, by rw [e]⟩
  · exact .inr ⟨hn, by rw [e]⟩

/-- Global flags, a double dash and a subcommand: everything behind it is taken for a file name. -/
def Stopped (isInt : Str → Bool) (args : List Str) (sub : Str) (ss : List (Str × Str))
    (names : List Str) : Prop :=
  ∃ g, Writes isInt globals ss g ∧ args = g ++ b!"--" :: sub :: names

/-- what main does if a double dash stands in front of the subcommand -/
theorem main_stopped (env : Env) (sources run : Command → Bool) {g : List Str}
    {gs : List (Str × Str)} (hg : Writes env.isInt globals gs g) (s : Sub) (rest : List Str) :
    parse env (flagsOf s) (g ++ b!"--" :: rest) = .ok gs rest ∧
    main env sources run (g ++ b!"--" :: nameOf s :: rest) =
      match command env sources s (g ++ b!"--" :: rest) with
      | .help => ⟨none, 0⟩
      | .error => ⟨none, 1⟩
      | .ok c => ⟨some c, if run c then 0 else 1⟩ := by
  refine ⟨parse_ok_of (matches_sub s) (Writes.mono (globals_in s) hg) (.inr rfl), ?_⟩
  have hp : parse env mainFlags (g ++ b!"--" :: nameOf s :: rest) = .ok gs (nameOf s :: rest) :=
    parse_ok_of matches_main hg (.inr rfl)
  have hn : (g ++ b!"--" :: nameOf s :: rest).take
      ((g ++ b!"--" :: nameOf s :: rest).length - (rest.length + 1)) = g ++ [b!"--"] := by
    have h1 : g ++ b!"--" :: nameOf s :: rest = (g ++ [b!"--"]) ++ nameOf s :: rest := by simp
    have h2 : (g ++ b!"--" :: nameOf s :: rest).length - (rest.length + 1) = (g ++ [b!"--"]).length := by
      simp; omega
    rw [h2, h1, List.take_left]
  have h3 : g ++ [b!"--"] ++ rest = g ++ b!"--" :: rest := by simp
  unfold main
  rw [hp]
  dsimp only
  rw [subOf_nameOf, hn, h3]
  rfl

/-- how a list of arguments looks to main -/
theorem main_cases (env : Env) (sources run : Command → Bool) (args : List Str) :
    (HelpIn env.isInt globals args ∧ main env sources run args = ⟨none, 0⟩) ∨
    main env sources run args = ⟨none, 1⟩ ∨
    (∃ gs g, Writes env.isInt globals gs g ∧ (args = g ∨ args = g ++ [b!"--"]) ∧
      main env sources run args = ⟨none, 0⟩) ∨
    (∃ gs g w rest, Writes env.isInt globals gs g ∧ w ∉ subcommands ∧
      (args = g ++ w :: rest ∨ args = g ++ b!"--" :: w :: rest) ∧
      main env sources run args = ⟨none, 0⟩) ∨
    (∃ gs g s rest, Writes env.isInt globals gs g ∧
      (args = g ++ nameOf s :: rest ∨ args = g ++ b!"--" :: nameOf s :: rest)) := by
  have inv := parse_inv (env := env) matches_main args
  cases hp : parse env mainFlags args with
  | help => exact .inl ⟨inv.2 hp, by unfold main; rw [hp]⟩
  | error => exact .inr (.inl (by unfold main; rw [hp]))
  | ok gs rest =>
    obtain ⟨g, w, hg, hw, e⟩ := inv.1 gs rest hp
    cases rest with
    | nil =>
      refine .inr (.inr (.inl ⟨gs, g, hg, ?_, by unfold main; rw [hp]⟩))
      rcases hw with ⟨rfl, _⟩ | rfl
      · exact .inl (by rw [e]; simp)
      · exact .inr e
    | cons sub rest =>
      cases hsub : subOf sub with
      | none =>
        refine .inr (.inr (.inr (.inl ⟨gs, g, sub, rest, hg, subOf_none hsub, ?_, ?_⟩)))
        · rcases hw with ⟨rfl, _⟩ | rfl
          · exact .inl e
          · exact .inr e
        · unfold main; rw [hp]; dsimp only; rw [hsub]
      | some s =>
        refine .inr (.inr (.inr (.inr ⟨gs, g, s, rest, hg, ?_⟩)))
        rw [← subOf_some hsub]
        rcases hw with ⟨rfl, _⟩ | rfl
        · exact .inl e
        · exact .inr e

/-- **C106**, the other way round: nothing is run but what a command line asks for.  Whatever the
arguments are, if a command runs then they are such a command line, or one with a double dash in
front of the subcommand. -/
theorem runs_only (env : Env) (sources run : Command → Bool) (args : List Str) (c : Command)
    (h : (main env sources run args).ran = some c) :
    ∃ sub ss names, sub ∈ subcommands ∧
      (Line env.isInt args sub ss names ∨ Stopped env.isInt args sub ss names) ∧
      Means env c sub ss names ∧ Usable env sub ss ∧
      (main env sources run args).status = if run c then 0 else 1 := by
  rcases main_cases env sources run args with ⟨_, e⟩ | e | ⟨_, _, _, _, e⟩ | ⟨_, _, _, _, _, _, _, e⟩ |
    ⟨gs, g, s, rest, hg, e | e⟩
  · rw [e] at h; cases h
  · rw [e] at h; cases h
  · rw [e] at h; cases h
  · rw [e] at h; cases h
  · rw [e, main_eq env sources run hg s rest] at h ⊢
    have hpw := parse_writes (env := env) (matches_sub s) (Writes.mono (globals_in s) hg) rest
    cases hp : parse env (flagsOf s) rest with
    | help =>
      have : command env sources s (g ++ rest) = .help := by
        unfold command; rw [hpw, hp]; rfl
      rw [this] at h; cases h
    | error =>
      have : command env sources s (g ++ rest) = .error := by
        unfold command; rw [hpw, hp]; rfl
      rw [this] at h; cases h
    | ok ls names =>
      rw [hp] at hpw
      obtain ⟨l, w, hl, hw, e'⟩ := (parse_inv (env := env) (matches_sub s) rest).1 ls names hp
      obtain ⟨c', hm, hc⟩ := command_eq env sources s (g ++ rest) (gs ++ ls) names hpw
      rcases hc with ⟨hu, _, ec⟩ | ⟨_, ec⟩
      · rw [ec] at h ⊢
        cases h
        exact ⟨nameOf s, gs ++ ls, names, name_mem s,
          .inl ⟨g, gs, l, ls, w, hg, hl, hw, by rw [e'], rfl⟩, hm, hu, rfl⟩
      · rw [ec] at h; cases h
  · obtain ⟨hp, em⟩ := main_stopped env sources run hg s rest
    rw [e, em] at h ⊢
    obtain ⟨c', hm, hc⟩ := command_eq env sources s _ gs rest hp
    rcases hc with ⟨hu, _, ec⟩ | ⟨_, ec⟩
    · rw [ec] at h ⊢
      cases h
      exact ⟨nameOf s, gs, rest, name_mem s, .inr ⟨g, hg, rfl⟩, hm, hu, rfl⟩
    · rw [ec] at h; cases h

/-- Help is asked for, from sqddl or from a subcommand. -/
def HelpLine (isInt : Str → Bool) (args : List Str) : Prop :=
  HelpIn isInt globals args ∨
    ∃ gs g sub rest, Writes isInt globals gs g ∧ sub ∈ subcommands ∧
      HelpIn isInt (flagsFor sub) rest ∧ args = g ++ sub :: rest

/-- No subcommand, or a word that is none. -/
def NoCommand (isInt : Str → Bool) (args : List Str) : Prop :=
  ∃ gs g w, Writes isInt globals gs g ∧ (∀ x, w.head? = some x → x ∉ subcommands) ∧
    (args = g ++ w ∨ args = g ++ b!"--" :: w)

/-- **C106**, the exit status: it is 0 only if a command was run without an error, or help was
asked for, or there is no subcommand, or the word in its place is none. -/
theorem status_zero_partial (env : Env) (sources run : Command → Bool) (args : List Str)
    (h : (main env sources run args).status = 0) :
    (∃ c, (main env sources run args).ran = some c ∧ run c = true) ∨
      HelpLine env.isInt args ∨ NoCommand env.isInt args := by
  rcases main_cases env sources run args with ⟨hh, _⟩ | e | ⟨gs, g, hg, e, _⟩ |
    ⟨gs, g, w, rest, hg, hw, e, _⟩ | ⟨gs, g, s, rest, hg, e | e⟩
  · exact .inr (.inl (.inl hh))
  · rw [e] at h; cases h
  · refine .inr (.inr ⟨gs, g, [], hg, by simp, ?_⟩)
    simpa using e
  · exact .inr (.inr ⟨gs, g, w :: rest, hg, fun x hx => (by cases hx; exact hw), e⟩)
  · have em := main_eq env sources run hg s rest
    rw [← e] at em
    rw [em] at h ⊢
    cases hc : command env sources s (g ++ rest) with
    | ok c =>
      left
      rw [hc] at h
      refine ⟨c, rfl, ?_⟩
      cases hr : run c with
      | true => rfl
      | false => dsimp only at h; rw [hr] at h; cases h
    | error => rw [hc] at h; cases h
    | help =>
      refine .inr (.inl (.inr ⟨gs, g, nameOf s, rest, hg, name_mem s, ?_, e⟩))
      have hpw := parse_writes (env := env) (matches_sub s) (Writes.mono (globals_in s) hg) rest
      refine (parse_inv (env := env) (matches_sub s) rest).2 ?_
      cases hp : parse env (flagsOf s) rest with
      | help => rfl
      | error =>
        have : command env sources s (g ++ rest) = .error := by
          unfold command; rw [hpw, hp]; rfl
        rw [this] at hc; cases hc
      | ok ls names =>
        rw [hp] at hpw
        obtain ⟨c', _, ⟨_, _, ec⟩ | ⟨_, ec⟩⟩ := command_eq env sources s (g ++ rest) (gs ++ ls) names hpw
        · rw [ec] at hc; cases hc
        · rw [ec] at hc; cases hc
  · obtain ⟨hp, em⟩ := main_stopped env sources run hg s rest
    rw [← e] at em
    rw [em] at h ⊢
    obtain ⟨c', _, ⟨_, _, ec⟩ | ⟨_, ec⟩⟩ := command_eq env sources s _ gs rest hp
    · rw [ec] at h ⊢
      left
      refine ⟨c', rfl, ?_⟩
      cases hr : run c' with
      | true => rfl
      | false => dsimp only at h; rw [hr] at h; cases h
    · rw [ec] at h; cases h

/-- A request for help is not an error. -/
theorem help_status (env : Env) (sources run : Command → Bool) (args : List Str)
    (h : HelpLine env.isInt args) : main env sources run args = ⟨none, 0⟩ := by
  have help : ∀ flags table, Matches flags table → kindIn table b!"h" = none →
      kindIn table b!"help" = none → ∀ rest, HelpIn env.isInt table rest →
      parse env flags rest = .help := by
    intro flags table m h1 h2 rest ⟨ss, l, s, r, hl, ⟨two, v, hs⟩, e⟩
    rw [e, parse_writes m hl]
    have n1 : flags.find? (fun f => f.name == b!"h") = none := by
      have := m.kind b!"h"; rw [h1] at this; simpa using this
    have n2 : flags.find? (fun f => f.name == b!"help") = none := by
      have := m.kind b!"help"; rw [h2] at this; simpa using this
    suffices hp : parse env flags (s :: r) = .help by rw [hp]; rfl
    rw [parse]
    rcases hs with rfl | rfl | rfl | rfl
    · rw [argOf_bare (n := b!"h") rfl two]; dsimp only; rw [n1]; rfl
    · rw [argOf_bare (n := b!"help") rfl two]; dsimp only; rw [n2]; rfl
    · have : dashes two ++ b!"h=" ++ v = dashes two ++ b!"h" ++ b!"=" ++ v := by simp
      rw [this, argOf_joined (n := b!"h") rfl two]; dsimp only; rw [n1]; rfl
    · have : dashes two ++ b!"help=" ++ v = dashes two ++ b!"help" ++ b!"=" ++ v := by simp
      rw [this, argOf_joined (n := b!"help") rfl two]; dsimp only; rw [n2]; rfl
  rcases h with h | ⟨gs, g, sub, rest, hg, hs, h, rfl⟩
  · unfold main
    rw [help mainFlags globals matches_main (by decide) (by decide) args h]
  · obtain ⟨s, rfl⟩ := sub_of_mem hs
    rw [main_eq env sources run hg s rest]
    have hp := help (flagsOf s) (flagsFor (nameOf s)) (matches_sub s) (by cases s <;> decide)
      (by cases s <;> decide) rest h
    have : command env sources s (g ++ rest) = .help := by
      unfold command
      rw [parse_writes (env := env) (matches_sub s) (Writes.mono (globals_in s) hg) rest, hp]
      rfl
    rw [this]

end Sqddl.CommandLine
