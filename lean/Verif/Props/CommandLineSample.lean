import Verif.Props.CommandLine

/-!
# C106: examples and what does not hold
-/

namespace Sqddl.CommandLine
open LineSpec

/-! ## What does not hold -/

/-- The exit status would tell whether something was done: 0 only for a command that ran without
an error or for help that was asked for. -/
def StatusTells (env : Env) (sources run : Command → Bool) : Prop :=
  ∀ args, (main env sources run args).status = 0 →
    (∃ c, (main env sources run args).ran = some c ∧ run c = true) ∨ HelpLine env.isInt args

theorem main_unknown (env : Env) (sources run : Command → Bool) (w : Str) (rest : List Str)
    (ho : Operand w) (hw : w ∉ subcommands) : main env sources run (w :: rest) = ⟨none, 0⟩ := by
  have hp : parse env mainFlags (w :: rest) = .ok [] (w :: rest) :=
    parse_names (.inl ⟨rfl, fun s' e => by cases e; exact ho⟩)
  have hs : subOf w = none := by
    cases h : subOf w with
    | none => rfl
    | some s => exact absurd (subOf_some h ▸ name_mem s) hw
  unfold main
  rw [hp]
  dsimp only
  rw [hs]

theorem parse_help_of {env : Env} {args : List Str} (h : HelpLine env.isInt args)
    (w : Str) (rest : List Str) (e : args = w :: rest)
    (ho : Operand w) : w ∈ subcommands := by
  subst e
  have hw : argOf w = .operand := argOf_operand ho
  rcases h with ⟨ss, l, s, r, hl, ⟨two, v, hs⟩, e⟩ | ⟨gs, g, sub, rest', hg, hs, _, e⟩
  · cases hl with
    | nil =>
      cases e
      exfalso
      rcases hs with rfl | rfl | rfl | rfl
      · rw [argOf_bare (n := b!"h") rfl two] at hw; cases hw
      · rw [argOf_bare (n := b!"help") rfl two] at hw; cases hw
      · have : dashes two ++ b!"h=" ++ v = dashes two ++ b!"h" ++ b!"=" ++ v := by simp
        rw [this, argOf_joined (n := b!"h") rfl two] at hw; cases hw
      · have : dashes two ++ b!"help=" ++ v = dashes two ++ b!"help" ++ b!"=" ++ v := by simp
        rw [this, argOf_joined (n := b!"help") rfl two] at hw; cases hw
    | apart two n v k hk _ _ _ =>
      cases e
      rw [argOf_bare (matches_main.find hk).choose_spec.2.2 two] at hw; cases hw
    | joined two n v k hk _ _ =>
      cases e
      rw [argOf_joined (matches_main.find hk).choose_spec.2.2 two] at hw; cases hw
    | bare two n hk _ =>
      cases e
      rw [argOf_bare (matches_main.find hk).choose_spec.2.2 two] at hw; cases hw
  · cases hg with
    | nil => cases e; exact hs
    | apart two n v k hk _ _ _ =>
      cases e
      rw [argOf_bare (matches_main.find hk).choose_spec.2.2 two] at hw; cases hw
    | joined two n v k hk _ _ =>
      cases e
      rw [argOf_joined (matches_main.find hk).choose_spec.2.2 two] at hw; cases hw
    | bare two n hk _ =>
      cases e
      rw [argOf_bare (matches_main.find hk).choose_spec.2.2 two] at hw; cases hw

/-- The exit status of `sqddl migrat -db ... -dir ...` is 0 though nothing was done: a script that
misspells the subcommand does not notice. -/
theorem unknown_subcommand_refuted (env : Env) (sources run : Command → Bool) :
    ¬ StatusTells env sources run := by
  intro h
  have hm := main_unknown env sources run b!"migrat" [b!"-db", b!"app.db"] (.inr (by decide))
    (by decide)
  rcases h [b!"migrat", b!"-db", b!"app.db"] (by rw [hm]) with ⟨c, hc, _⟩ | hh
  · rw [hm] at hc; cases hc
  · exact absurd (parse_help_of hh b!"migrat" _ rfl (.inr (by decide))) (by decide)

/-- A flag behind the first argument that is none would still count, or be refused. -/
def LateFlagsCount (env : Env) (sources run : Command → Bool) : Prop :=
  ∀ args c, (main env sources run (args ++ [b!"-dry-run"])).ran = some c → c.sub = .wipe →
    c.value b!"dry-run" = b!"true"

/-- `sqddl wipe -db <url> <word> -dry-run` wipes the database: the word ends the flags, and `wipe`
looks at no other arguments. -/
theorem late_dry_run_refuted (env : Env) (sources run : Command → Bool) (url : Str)
    (t : Dialect × Str × Str) (hu : url ≠ []) (ht : env.dsn url = some t)
    (ho : env.opens t = true) : ¬ LateFlagsCount env sources run := by
  intro h
  have hl : Line env.isInt [b!"wipe", b!"-db", url, b!"main", b!"-dry-run"] b!"wipe"
      [(b!"db", url)] [b!"main", b!"-dry-run"] :=
    ⟨[], [], [b!"-db", url], [(b!"db", url)], [b!"main", b!"-dry-run"], .nil,
      .apart false b!"db" url .text (by decide) (by decide) trivial .nil,
      .inl ⟨rfl, fun s e => by cases e; exact .inr (by decide)⟩, rfl, rfl⟩
  have husable : Usable env b!"wipe" [(b!"db", url)] :=
    ⟨fun _ => ⟨hu, t, ht, ho⟩, fun h => (by rcases h with h | h <;> cases h),
      fun h => (by rcases h with h | h <;> cases h)⟩
  obtain ⟨c, hm, hc⟩ := line_runs_partial env sources run (by decide) hl
  have hr : Readable sources b!"wipe" c := fun h => by rcases h with h | h <;> cases h
  rcases hc with ⟨_, _, e⟩ | ⟨hn, _⟩
  · have hsub : c.sub = .wipe := by
      have h1 := subOf_nameOf c.sub
      rw [hm.name] at h1
      exact (Option.some.inj h1).symm
    have h1 := h [b!"wipe", b!"-db", url, b!"main"] c (by
      show (main env sources run [b!"wipe", b!"-db", url, b!"main", b!"-dry-run"]).ran = some c
      rw [e]) hsub
    rw [hm.value b!"dry-run" .switch (by decide) (by decide)] at h1
    exact absurd h1 (by show ¬ b!"false" = b!"true"; decide)
  · exact hn ⟨husable, hr⟩

/-- A double dash in front of the subcommand would end the global flags only. -/
def DashesEndGlobals (env : Env) (sources run : Command → Bool) : Prop :=
  ∀ g gs rest, Writes env.isInt globals gs g →
    main env sources run (g ++ b!"--" :: rest) = main env sources run (g ++ rest)

/-- `sqddl -db <url> -- wipe -dry-run` wipes the database too: the double dash is passed on to the
subcommand and takes its flags away. -/
theorem dashes_refuted (env : Env) (sources run : Command → Bool) (url : Str)
    (t : Dialect × Str × Str) (hu : url ≠ []) (ht : env.dsn url = some t)
    (ho : env.opens t = true) :
    (∃ c, (main env sources run [b!"-db", url, b!"--", b!"wipe", b!"-dry-run"]).ran = some c ∧
      c.sub = .wipe ∧ c.value b!"dry-run" = b!"false") ∧ ¬ DashesEndGlobals env sources run := by
  have hg : Writes env.isInt globals [(b!"db", url)] [b!"-db", url] :=
    .apart false b!"db" url .text (by decide) (by decide) trivial .nil
  have husable : ∀ ss, lastOf b!"db" ss = some url → Usable env b!"wipe" ss := by
    intro ss hss
    have e : meant b!"wipe" ss b!"db" = url := by unfold meant; rw [hss]; rfl
    exact ⟨fun _ => by rw [e]; exact ⟨hu, t, ht, ho⟩, fun h => (by rcases h with h | h <;> cases h),
      fun h => (by rcases h with h | h <;> cases h)⟩
  have wipe : ∀ c : Command, nameOf c.sub = b!"wipe" → c.sub = .wipe := by
    intro c hn
    have h1 := subOf_nameOf c.sub
    rw [hn] at h1
    exact (Option.some.inj h1).symm
  have first : ∃ c, (main env sources run [b!"-db", url, b!"--", b!"wipe", b!"-dry-run"]).ran = some c ∧
      c.sub = .wipe ∧ c.value b!"dry-run" = b!"false" := by
    obtain ⟨hp, em⟩ := main_stopped env sources run hg .wipe [b!"-dry-run"]
    obtain ⟨c, hm, hc⟩ := command_eq env sources .wipe _ _ _ hp
    rcases hc with ⟨_, _, e⟩ | ⟨hn, _⟩
    · refine ⟨c, ?_, wipe c hm.name, hm.value b!"dry-run" .switch (by decide) (by decide)⟩
      show (main env sources run ([b!"-db", url] ++ b!"--" :: nameOf .wipe :: [b!"-dry-run"])).ran = _
      rw [em, e]
    · exact absurd ⟨husable _ rfl, fun h => by rcases h with h | h <;> cases h⟩ hn
  refine ⟨first, fun h => ?_⟩
  obtain ⟨c, hc, _, hv⟩ := first
  have e := h _ _ [b!"wipe", b!"-dry-run"] hg
  have hl : Line env.isInt ([b!"-db", url] ++ [b!"wipe", b!"-dry-run"]) b!"wipe"
      [(b!"db", url), (b!"dry-run", b!"true")] [] :=
    ⟨[b!"-db", url], [(b!"db", url)], [b!"-dry-run"], [(b!"dry-run", b!"true")], [], hg,
      .bare false b!"dry-run" (by decide) .nil, .inl ⟨rfl, fun s e => by cases e⟩, rfl, rfl⟩
  obtain ⟨c', hm, hc'⟩ := line_runs_partial env sources run (by decide) hl
  rcases hc' with ⟨_, _, e'⟩ | ⟨hn, _⟩
  · rw [← e] at e'
    have hc2 : (main env sources run ([b!"-db", url] ++ b!"--" :: [b!"wipe", b!"-dry-run"])).ran = some c := hc
    rw [e'] at hc2
    cases hc2
    have h2 := hm.value b!"dry-run" .switch (by decide) (by decide)
    rw [hv] at h2
    exact absurd h2 (by show ¬ b!"false" = b!"true"; decide)
  · exact hn ⟨husable _ rfl, fun h => by rcases h with h | h <;> cases h⟩

/-- The command lines of /repo/sqddl.md:55-60 (`sqddl ls -db ...` and `sqddl -db ... ls`) are
refused: `ls` needs `-dir`. -/
theorem ls_documented_refuted (env : Env) (sources run : Command → Bool) (url : Str) :
    main env sources run [b!"ls", b!"-db", url] = ⟨none, 1⟩ ∧
    main env sources run [b!"-db", url, b!"ls"] = ⟨none, 1⟩ := by
  have w : ∀ table, kindIn table b!"db" = some .text →
      Writes env.isInt table [(b!"db", url)] [b!"-db", url] := fun table h =>
    .apart false b!"db" url .text h (by decide) trivial .nil
  have no : ∀ c, ¬ (Usable env b!"ls" [(b!"db", url)] ∧ Readable sources b!"ls" c) :=
    fun c h => h.1.dir (.inr rfl) rfl
  constructor
  · obtain ⟨c, _, ⟨hu, hr, _⟩ | ⟨_, e⟩⟩ := line_runs_partial env sources run
      (args := [b!"ls", b!"-db", url]) (sub := b!"ls") (ss := [(b!"db", url)]) (names := [])
      (by decide) ⟨[], [], [b!"-db", url], _, [], .nil, w _ (by decide),
        .inl ⟨rfl, fun s e => by cases e⟩, rfl, rfl⟩
    · exact absurd ⟨hu, hr⟩ (no c)
    · exact e
  · obtain ⟨c, _, ⟨hu, hr, _⟩ | ⟨_, e⟩⟩ := line_runs_partial env sources run
      (args := [b!"-db", url, b!"ls"]) (sub := b!"ls") (ss := [(b!"db", url)]) (names := [])
      (by decide) ⟨[b!"-db", url], _, [], [], [], w _ (by decide), .nil,
        .inl ⟨rfl, fun s e => by cases e⟩, rfl, rfl⟩
    · exact absurd ⟨hu, hr⟩ (no c)
    · exact e

/-- The command line in the usage text of `dump` (/repo/ddl/dump_cmd.go:133) is refused: there is
no flag `-dir`. -/
theorem dump_documented_refuted (env : Env) (sources run : Command → Bool) (url : Str) :
    main env sources run [b!"dump", b!"-db", url, b!"-dir", b!"dump"] = ⟨none, 1⟩ := by
  have e := main_eq env sources run (.nil : Writes env.isInt globals [] []) .dump
    [b!"-db", url, b!"-dir", b!"dump"]
  show main env sources run ([] ++ nameOf .dump :: [b!"-db", url, b!"-dir", b!"dump"]) = _
  rw [e]
  have hp : parse env (flagsOf .dump) ([b!"-db", url] ++ [b!"-dir", b!"dump"]) = .error := by
    have hw : Writes env.isInt (flagsFor (nameOf .dump)) [(b!"db", url)] [b!"-db", url] :=
      .apart false b!"db" url .text (by decide) (by decide) trivial .nil
    rw [parse_writes (matches_sub .dump) hw [b!"-dir", b!"dump"]]
    have : parse env (flagsOf .dump) [b!"-dir", b!"dump"] = .error := by
      rw [parse]; rfl
    rw [this]; rfl
  have hc : command env sources .dump ([] ++ [b!"-db", url, b!"-dir", b!"dump"]) = .error := by
    unfold command
    have hp' : parse env (flagsOf .dump) ([] ++ [b!"-db", url, b!"-dir", b!"dump"]) = .error := hp
    rw [hp']
  rw [hc]

/-! ## Examples -/

/-- digits are numbers, every text is a delay, files that do not exist, no drivers -/
def sampleEnv : Env where
  isInt v := v != [] && v.all Go.isDigit
  isDuration _ := true
  dsn := normalizeDSN (fun _ => .notExist) (fun _ => none)
  opens _ := true

/-- `sqddl -db a.db --history-table=h migrate -db=b.db --max-attempts 3 -dir m -verbose
./m/01.sql -x.sql` -/
def sampleArgs : List Str :=
  [b!"-db", b!"a.db", b!"--history-table=h", b!"migrate", b!"-db=b.db", b!"--max-attempts", b!"3",
   b!"-dir", b!"m", b!"-verbose", b!"./m/01.sql", b!"-x.sql"]

def sampleSettings : List (Str × Str) :=
  [(b!"db", b!"a.db"), (b!"history-table", b!"h"), (b!"db", b!"b.db"), (b!"max-attempts", b!"3"),
   (b!"dir", b!"m"), (b!"verbose", b!"true")]

theorem sample_line : Line sampleEnv.isInt sampleArgs b!"migrate" sampleSettings
    [b!"./m/01.sql", b!"-x.sql"] :=
  ⟨[b!"-db", b!"a.db", b!"--history-table=h"], [(b!"db", b!"a.db"), (b!"history-table", b!"h")],
    [b!"-db=b.db", b!"--max-attempts", b!"3", b!"-dir", b!"m", b!"-verbose"],
    [(b!"db", b!"b.db"), (b!"max-attempts", b!"3"), (b!"dir", b!"m"), (b!"verbose", b!"true")],
    [b!"./m/01.sql", b!"-x.sql"],
    .apart false b!"db" b!"a.db" .text (by decide) (by decide) trivial
      (.joined true b!"history-table" b!"h" .text (by decide) trivial .nil),
    .joined false b!"db" b!"b.db" .text (by decide) trivial
      (.apart true b!"max-attempts" b!"3" .number (by decide) (by decide)
        (show sampleEnv.isInt b!"3" = true by decide)
        (.apart false b!"dir" b!"m" .text (by decide) (by decide) trivial
          (.bare false b!"verbose" (by decide) .nil))),
    .inl ⟨rfl, fun s e => by cases e; exact .inr (by decide)⟩, rfl, rfl⟩

theorem sample_usable : Usable sampleEnv b!"migrate" sampleSettings :=
  ⟨fun _ => ⟨by decide, (.sqlite, b!"sqlite3", b!"b.db"), by decide, rfl⟩, fun _ => by decide,
    fun _ n _ => .inr rfl⟩

/-- non-vacuity of `line_runs_partial`: the second `-db` counts, the history table is the one named
in front of the subcommand, the delays have their defaults, and the names lose the directory -/
example : ∃ c, main sampleEnv (fun _ => true) (fun _ => true) sampleArgs = ⟨some c, 0⟩ ∧
    c.value b!"db" = b!"b.db" ∧ c.value b!"history-table" = b!"h" ∧
    c.value b!"max-attempts" = b!"3" ∧ c.value b!"max-delay" = b!"5m" ∧
    c.value b!"verbose" = b!"true" ∧ c.value b!"skip-history-table" = b!"false" ∧
    c.conn = some (.sqlite, b!"sqlite3", b!"b.db") ∧
    c.names = [b!"01.sql", b!"-x.sql"] := by
  obtain ⟨c, hm, ⟨_, _, e⟩ | ⟨hn, _⟩⟩ := line_runs_partial sampleEnv (fun _ => true) (fun _ => true)
    (sub := b!"migrate") (by decide) sample_line
  · refine ⟨c, e, ?_, ?_, ?_, ?_, ?_, ?_, ?_, ?_⟩
    · rw [hm.value _ .text (by decide) (by decide)]; decide
    · rw [hm.value _ .text (by decide) (by decide)]; decide
    · rw [hm.value _ .number (by decide) (by decide)]; decide
    · rw [hm.value _ .text (by decide) (by decide)]; decide
    · rw [hm.value _ .switch (by decide) (by decide)]; decide
    · rw [hm.value _ .switch (by decide) (by decide)]; decide
    · rw [hm.conn (by decide)]; decide
    · rw [hm.names]; decide
  · exact absurd ⟨sample_usable, fun h => by rcases h with h | h <;> cases h⟩ hn

/-- non-vacuity of `runs_only` -/
example : ∃ c, (main sampleEnv (fun _ => true) (fun _ => true) sampleArgs).ran = some c := by
  obtain ⟨c, _, ⟨_, _, e⟩ | ⟨hn, _⟩⟩ := line_runs_partial sampleEnv (fun _ => true) (fun _ => true)
    (sub := b!"migrate") (by decide) sample_line
  · exact ⟨c, by rw [e]⟩
  · exact absurd ⟨sample_usable, fun h => by rcases h with h | h <;> cases h⟩ hn

/-- non-vacuity of `status_zero_partial` and `help_status`: `sqddl -db a.db migrate -verbose --help` -/
example : HelpLine sampleEnv.isInt [b!"-db", b!"a.db", b!"migrate", b!"-verbose", b!"--help"] ∧
    (main sampleEnv (fun _ => true) (fun _ => true)
      [b!"-db", b!"a.db", b!"migrate", b!"-verbose", b!"--help"]).status = 0 := by
  have h : HelpLine sampleEnv.isInt [b!"-db", b!"a.db", b!"migrate", b!"-verbose", b!"--help"] :=
    .inr ⟨[(b!"db", b!"a.db")], [b!"-db", b!"a.db"], b!"migrate", [b!"-verbose", b!"--help"],
      .apart false b!"db" b!"a.db" .text (by decide) (by decide) trivial .nil, by decide,
      ⟨[(b!"verbose", b!"true")], [b!"-verbose"], b!"--help", [],
        .bare false b!"verbose" (by decide) .nil, ⟨true, [], .inr (.inl rfl)⟩, rfl⟩, rfl⟩
  exact ⟨h, by rw [help_status _ _ _ _ h]⟩

/-- the database of `late_dry_run_refuted` and `dashes_refuted` exists -/
example : b!"a.db" ≠ [] ∧ sampleEnv.dsn b!"a.db" = some (.sqlite, b!"sqlite3", b!"a.db") ∧
    sampleEnv.opens (.sqlite, b!"sqlite3", b!"a.db") = true := by decide

end Sqddl.CommandLine
