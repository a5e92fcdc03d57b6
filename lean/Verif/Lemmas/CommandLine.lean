import Verif.Model.CommandLine
import Verif.Spec.CommandLine

/-!
# Lemmas for C106: written flags are read back
-/

namespace Sqddl.CommandLine
open LineSpec

/-! ## Single arguments -/

/-- the name of a flag as it can be written -/
def plain : Str → Bool
  | [] => false
  | c :: r => c != '-' && c != '=' && !r.contains '='

theorem argOf_plain (c : Char) (r : Str) (two : Bool) (hc : c ≠ '-') :
    argOf (dashes two ++ c :: r) =
      if c = '=' then .bad
      else .flag (c :: r.takeWhile (· ≠ '='))
        (if '=' ∈ r then some (r.drop ((r.takeWhile (· ≠ '=')).length + 1)) else none) := by
  cases two
  · show argOf ('-' :: c :: r) = _
    simp [argOf, hc]
  · show argOf ('-' :: '-' :: c :: r) = _
    simp [argOf, hc]

theorem takeWhile_plain {r : Str} (h : '=' ∉ r) : r.takeWhile (· ≠ '=') = r := by
  induction r with
  | nil => rfl
  | cons c r ih =>
    have hc : c ≠ '=' := fun e => h (by simp [e])
    have hr : '=' ∉ r := fun e => h (List.mem_cons_of_mem _ e)
    simp [List.takeWhile_cons, hc]
    simpa using ih hr

theorem takeWhile_eq {r v : Str} (h : '=' ∉ r) : (r ++ '=' :: v).takeWhile (· ≠ '=') = r := by
  induction r with
  | nil => simp
  | cons c r ih =>
    have hc : c ≠ '=' := fun e => h (by simp [e])
    have hr : '=' ∉ r := fun e => h (List.mem_cons_of_mem _ e)
    simp [List.takeWhile_cons, hc]
    simpa using ih hr

theorem split_eq (r : Str) :
    ('=' ∉ r ∧ r.takeWhile (· ≠ '=') = r) ∨
      ∃ a b, '=' ∉ a ∧ r = a ++ '=' :: b := by
  induction r with
  | nil => exact .inl ⟨by simp, rfl⟩
  | cons c r ih =>
    by_cases hc : c = '='
    · exact .inr ⟨[], r, by simp, by simp [hc]⟩
    · rcases ih with ⟨h, _⟩ | ⟨a, b, ha, e⟩
      · have h' : '=' ∉ c :: r := by simp [Ne.symm hc, h]
        exact .inl ⟨h', takeWhile_plain h'⟩
      · exact .inr ⟨c :: a, b, by simp [Ne.symm hc, ha], by simp [e]⟩

theorem plain_iff {n : Str} :
    plain n = true ↔ ∃ c r, n = c :: r ∧ c ≠ '-' ∧ c ≠ '=' ∧ '=' ∉ r := by
  cases n with
  | nil => simp [plain]
  | cons c r => simp [plain, and_assoc]

theorem argOf_bare {n : Str} (h : plain n = true) (two : Bool) :
    argOf (dashes two ++ n) = .flag n none := by
  obtain ⟨c, r, rfl, h1, h2, h3⟩ := plain_iff.mp h
  rw [argOf_plain c r two h1, if_neg h2, if_neg h3, takeWhile_plain h3]

theorem argOf_joined {n : Str} (h : plain n = true) (two : Bool) (v : Str) :
    argOf (dashes two ++ n ++ b!"=" ++ v) = .flag n (some v) := by
  obtain ⟨c, r, rfl, h1, h2, h3⟩ := plain_iff.mp h
  have e : dashes two ++ c :: r ++ b!"=" ++ v = dashes two ++ c :: (r ++ '=' :: v) := by simp
  rw [e, argOf_plain c _ two h1, if_neg h2, if_pos (by simp), takeWhile_eq h3]
  simp

/-- how an argument that is not an operand can look -/
theorem argOf_cases (s : Str) :
    (Operand s ∧ argOf s = .operand) ∨ (s = b!"--" ∧ argOf s = .stop) ∨ argOf s = .bad ∨
      (∃ two n, plain n = true ∧ s = dashes two ++ n ∧ argOf s = .flag n none) ∨
      (∃ two n v, plain n = true ∧ s = dashes two ++ n ++ b!"=" ++ v ∧
        argOf s = .flag n (some v)) := by
  have key : ∀ two c r, c ≠ '-' → s = dashes two ++ c :: r →
      argOf s = .bad ∨
      (∃ two n, plain n = true ∧ s = dashes two ++ n ∧ argOf s = .flag n none) ∨
      (∃ two n v, plain n = true ∧ s = dashes two ++ n ++ b!"=" ++ v ∧
        argOf s = .flag n (some v)) := by
    intro two c r hc hs
    by_cases h2 : c = '='
    · exact .inl (by rw [hs, argOf_plain c r two hc, if_pos h2])
    · rcases split_eq r with ⟨h3, _⟩ | ⟨a, b, ha, e⟩
      · have hp : plain (c :: r) = true := plain_iff.mpr ⟨c, r, rfl, hc, h2, h3⟩
        exact .inr (.inl ⟨two, _, hp, hs, by rw [hs]; exact argOf_bare hp two⟩)
      · have hp : plain (c :: a) = true := plain_iff.mpr ⟨c, a, rfl, hc, h2, ha⟩
        have hs' : s = dashes two ++ (c :: a) ++ b!"=" ++ b := by rw [hs, e]; simp
        exact .inr (.inr ⟨two, _, b, hp, hs', by rw [hs']; exact argOf_joined hp two b⟩)
  match s, key with
  | [], _ => exact .inl ⟨.inr (by simp), rfl⟩
  | [c], _ =>
    refine .inl ⟨?_, ?_⟩
    · by_cases h : c = '-'
      · exact .inl (by rw [h])
      · exact .inr (by simpa using h)
    · unfold argOf
      split
      · next h => cases h
      · rfl
  | c :: d :: r, key =>
    by_cases hc : c = '-'
    · by_cases hd : d = '-'
      · subst hc; subst hd
        match r, key with
        | [], _ => exact .inr (.inl ⟨rfl, rfl⟩)
        | e :: r, key =>
          by_cases he : e = '-'
          · exact .inr (.inr (.inl (by subst he; simp [argOf])))
          · rcases key true e r he rfl with h | h | h
            · exact .inr (.inr (.inl h))
            · exact .inr (.inr (.inr (.inl h)))
            · exact .inr (.inr (.inr (.inr h)))
      · subst hc
        rcases key false d r hd rfl with h | h | h
        · exact .inr (.inr (.inl h))
        · exact .inr (.inr (.inr (.inl h)))
        · exact .inr (.inr (.inr (.inr h)))
    · refine .inl ⟨.inr (by simpa using hc), ?_⟩
      unfold argOf
      split
      · next h => cases h; exact absurd rfl hc
      · rfl

theorem argOf_operand {s : Str} (h : Operand s) : argOf s = .operand := by
  rcases argOf_cases s with ⟨_, h'⟩ | ⟨rfl, _⟩ | h' | ⟨two, n, hp, rfl, _⟩ | ⟨two, n, v, hp, rfl, _⟩
  · exact h'
  · rcases h with h | h
    · cases h
    · exact absurd rfl h
  · rcases h with rfl | h
    · rfl
    · unfold argOf at h' ⊢
      split at h'
      · exact absurd rfl h
      · cases h'
  · obtain ⟨c, r, rfl, h1, h2, h3⟩ := plain_iff.mp hp
    rcases h with h | h
    · cases two <;> simp [dashes] at h
    · cases two <;> exact absurd rfl h
  · obtain ⟨c, r, rfl, h1, h2, h3⟩ := plain_iff.mp hp
    rcases h with h | h
    · cases two <;> simp [dashes] at h
    · cases two <;> exact absurd rfl h

/-! ## Lists of arguments -/

/-- what the flags of the code take -/
def takes : Kind → Takes
  | .bool => .switch
  | .int => .number
  | .string => .text
  | .strs => .text

/-- the flags of the code are those of a table, and all of them can be written -/
structure Matches (flags : List Flag) (table : List (Str × Takes)) : Prop where
  kind : ∀ n, (flags.find? (fun f => f.name == n)).map (fun f => takes f.kind) = kindIn table n
  name : ∀ f ∈ flags, plain f.name = true

theorem isBool_iff (v : Str) : isBool v = true ↔ v ∈ yesNo := by
  simp only [isBool, yesNo, List.contains_iff_mem, List.mem_cons, List.not_mem_nil, or_false]
  constructor <;> (intro h; rcases h with h | h | h | h | h | h | h | h | h | h | h | h <;> simp [h])

theorem valid_iff (env : Env) (k : Kind) (v : Str) :
    valid env k v = true ↔ Fits env.isInt (takes k) v := by
  cases k <;> simp [valid, takes, Fits, isBool_iff]

variable {env : Env} {flags : List Flag} {table : List (Str × Takes)}

theorem Matches.find (m : Matches flags table) {n : Str} {k : Takes} (h : kindIn table n = some k) :
    ∃ f, flags.find? (fun f => f.name == n) = some f ∧ takes f.kind = k ∧ plain n = true := by
  have hk := m.kind n
  rw [h] at hk
  cases hf : flags.find? (fun f => f.name == n) with
  | none => rw [hf] at hk; cases hk
  | some f =>
    rw [hf] at hk
    have hn : f.name = n := by simpa using List.find?_some hf
    exact ⟨f, rfl, Option.some.inj hk, hn ▸ m.name f (List.mem_of_find?_eq_some hf)⟩

theorem takes_switch {k : Kind} : takes k = .switch ↔ k = .bool := by cases k <;> simp [takes]

/-- values set before the others -/
def Parsed.prepend (ss : List (Str × Str)) : Parsed → Parsed
  | .ok sets rest => .ok (ss ++ sets) rest
  | .help => .help
  | .error => .error

theorem prepend_cons (x : Str × Str) (ss : List (Str × Str)) (p : Parsed) :
    (p.prepend ss).cons x = p.prepend (x :: ss) := by cases p <;> rfl

theorem prepend_nil (p : Parsed) : p.prepend [] = p := by cases p <;> rfl

theorem parse_writes (m : Matches flags table) {ss : List (Str × Str)} {l : List Str}
    (h : Writes env.isInt table ss l) (tail : List Str) :
    parse env flags (l ++ tail) = (parse env flags tail).prepend ss := by
  induction h with
  | nil => exact (prepend_nil _).symm
  | @apart ss l two n v k hk hs hv h ih =>
    obtain ⟨f, hf, ht, hp⟩ := m.find hk
    have hb : f.kind ≠ .bool := fun e => hs (by rw [← ht, e]; rfl)
    have hv' : valid env f.kind v = true := (valid_iff env f.kind v).mpr (ht ▸ hv)
    show parse env flags ((dashes two ++ n) :: v :: (l ++ tail)) = _
    rw [parse, argOf_bare hp two]
    simp only [hf, if_neg hb, hv', if_true, ih, prepend_cons]
  | @joined ss l two n v k hk hv h ih =>
    obtain ⟨f, hf, ht, hp⟩ := m.find hk
    have hv' : valid env f.kind v = true := (valid_iff env f.kind v).mpr (ht ▸ hv)
    show parse env flags ((dashes two ++ n ++ b!"=" ++ v) :: (l ++ tail)) = _
    rw [parse, argOf_joined hp two]
    by_cases hb : f.kind = .bool
    · rw [hb] at hv'
      simp only [hf, hb, hv', if_true, Option.getD_some, ih, prepend_cons]
    · simp only [hf, if_neg hb, hv', if_true, ih, prepend_cons]
  | @bare ss l two n hk h ih =>
    obtain ⟨f, hf, ht, hp⟩ := m.find hk
    have hb : f.kind = .bool := takes_switch.mp ht
    show parse env flags ((dashes two ++ n) :: (l ++ tail)) = _
    rw [parse, argOf_bare hp two]
    have hv' : valid env .bool b!"true" = true := rfl
    simp only [hf, hb, Option.getD_none, hv', if_true, ih, prepend_cons]

theorem parse_names {w names : List Str} (h : Names w names) : parse env flags w = .ok [] names := by
  rcases h with ⟨rfl, h⟩ | rfl
  · cases w with
    | nil => rw [parse]
    | cons s w => rw [parse, argOf_operand (h s rfl)]
  · rw [parse]; rfl

theorem parse_ok_of (m : Matches flags table) {ss : List (Str × Str)} {l w names : List Str}
    (h : Writes env.isInt table ss l) (hw : Names w names) :
    parse env flags (l ++ w) = .ok ss names := by
  rw [parse_writes m h, parse_names hw]
  simp [Parsed.prepend]

/-- a request for help behind written flags -/
def HelpIn (isInt : Str → Bool) (table : List (Str × Takes)) (args : List Str) : Prop :=
  ∃ ss l s r, Writes isInt table ss l ∧ AsksHelp s ∧ args = l ++ s :: r

/-- every list of arguments that `parse` accepts was written that way -/
theorem parse_inv (m : Matches flags table) (args : List Str) :
    (∀ ss names, parse env flags args = .ok ss names →
      ∃ l w, Writes env.isInt table ss l ∧ Names w names ∧ args = l ++ w) ∧
    (parse env flags args = .help → HelpIn env.isInt table args) := by
  have cons_help : ∀ x p, Parsed.cons x p = .help → p = .help := by
    intro x p h; cases p <;> first | rfl | cases h
  have cons_ok : ∀ x p ss names, Parsed.cons x p = .ok ss names →
      ∃ ss', ss = x :: ss' ∧ p = .ok ss' names := by
    intro x p ss names h
    cases p with
    | ok a b => cases h; exact ⟨a, rfl, rfl⟩
    | help => cases h
    | error => cases h
  have find_kind : ∀ n f, flags.find? (fun f => f.name == n) = some f →
      kindIn table n = some (takes f.kind) := by
    intro n f hf
    have := m.kind n
    rw [hf] at this
    exact this.symm
  induction hlen : args.length using Nat.strongRecOn generalizing args with
  | _ k ih =>
  cases args with
  | nil =>
    rw [parse]
    exact ⟨fun ss names h => (by cases h; exact ⟨[], [], .nil, .inl ⟨rfl, by simp⟩, rfl⟩),
      fun h => by cases h⟩
  | cons s rest =>
    rcases argOf_cases s with ⟨ho, h⟩ | ⟨hs, h⟩ | h | ⟨two, n, hp, hs, h⟩ | ⟨two, n, v, hp, hs, h⟩
    · rw [parse, h]
      exact ⟨fun ss names h' => (by
        cases h'
        exact ⟨[], _, .nil, .inl ⟨rfl, fun s' e => (by cases e; exact ho)⟩, rfl⟩), fun h => (by cases h)⟩
    · rw [parse, h]
      exact ⟨fun ss names h' => (by cases h'; exact ⟨[], _, .nil, .inr rfl, (by rw [hs]; rfl)⟩),
        fun h => (by cases h)⟩
    · rw [parse, h]
      exact ⟨fun _ _ h => (by cases h), fun h => (by cases h)⟩
    · rw [parse, h]
      dsimp only
      cases hf : flags.find? (fun f => f.name == n) with
      | none =>
        dsimp only
        by_cases hh : n = b!"help" ∨ n = b!"h"
        · rw [if_pos hh]
          refine ⟨fun _ _ h => (by cases h), fun _ => ⟨[], [], s, rest, .nil, ⟨two, [], ?_⟩, rfl⟩⟩
          rcases hh with rfl | rfl
          · exact .inr (.inl hs)
          · exact .inl hs
        · rw [if_neg hh]
          exact ⟨fun _ _ h => (by cases h), fun h => (by cases h)⟩
      | some f =>
        have hk := find_kind n f hf
        dsimp only
        by_cases hb : f.kind = .bool
        · rw [if_pos hb, hb]
          have hv' : valid env .bool ((none : Option Str).getD b!"true") = true := rfl
          rw [if_pos hv']
          have ih' := ih rest.length (by rw [← hlen]; simp) rest rfl
          rw [hb] at hk
          constructor
          · intro ss names h'
            obtain ⟨ss', rfl, hp'⟩ := cons_ok _ _ _ _ h'
            obtain ⟨l, w, hl, hw, e⟩ := ih'.1 ss' names hp'
            exact ⟨(dashes two ++ n) :: l, w, .bare two n hk hl, hw, by rw [hs, e]; rfl⟩
          · intro h'
            obtain ⟨ss, l, s', r, hl, hh, e⟩ := ih'.2 (cons_help _ _ h')
            exact ⟨_, (dashes two ++ n) :: l, s', r, .bare two n hk hl, hh, by rw [hs, e]; rfl⟩
        · rw [if_neg hb]
          cases rest with
          | nil => exact ⟨fun _ _ h => (by cases h), fun h => (by cases h)⟩
          | cons v rest =>
            dsimp only
            by_cases hv : valid env f.kind v = true
            · rw [if_pos hv]
              have ih' := ih rest.length (by rw [← hlen]; simp only [List.length_cons]; omega) rest rfl
              have hfit := (valid_iff env f.kind v).mp hv
              have hns : takes f.kind ≠ .switch := fun e => hb (takes_switch.mp e)
              constructor
              · intro ss names h'
                obtain ⟨ss', rfl, hp'⟩ := cons_ok _ _ _ _ h'
                obtain ⟨l, w, hl, hw, e⟩ := ih'.1 ss' names hp'
                exact ⟨(dashes two ++ n) :: v :: l, w, .apart two n v _ hk hns hfit hl, hw,
                  by rw [hs, e]; rfl⟩
              · intro h'
                obtain ⟨ss, l, s', r, hl, hh, e⟩ := ih'.2 (cons_help _ _ h')
                exact ⟨_, (dashes two ++ n) :: v :: l, s', r, .apart two n v _ hk hns hfit hl, hh,
                  by rw [hs, e]; rfl⟩
            · rw [if_neg hv]
              exact ⟨fun _ _ h => (by cases h), fun h => (by cases h)⟩
    · rw [parse, h]
      dsimp only
      cases hf : flags.find? (fun f => f.name == n) with
      | none =>
        dsimp only
        by_cases hh : n = b!"help" ∨ n = b!"h"
        · rw [if_pos hh]
          refine ⟨fun _ _ h => (by cases h), fun _ => ⟨[], [], s, rest, .nil, ⟨two, v, ?_⟩, rfl⟩⟩
          rcases hh with rfl | rfl
          · exact .inr (.inr (.inr (by rw [hs]; simp)))
          · exact .inr (.inr (.inl (by rw [hs]; simp)))
        · rw [if_neg hh]
          exact ⟨fun _ _ h => (by cases h), fun h => (by cases h)⟩
      | some f =>
        have hk := find_kind n f hf
        dsimp only
        have ih' := ih rest.length (by rw [← hlen]; simp) rest rfl
        have goal : ∀ p, (p = if valid env f.kind v = true then (parse env flags rest).cons (n, v)
            else .error) →
            (∀ ss names, p = .ok ss names →
              ∃ l w, Writes env.isInt table ss l ∧ Names w names ∧ s :: rest = l ++ w) ∧
            (p = .help → HelpIn env.isInt table (s :: rest)) := by
          intro p hp'
          by_cases hv : valid env f.kind v = true
          · rw [if_pos hv] at hp'
            have hfit := (valid_iff env f.kind v).mp hv
            subst hp'
            constructor
            · intro ss names h'
              obtain ⟨ss', rfl, hp'⟩ := cons_ok _ _ _ _ h'
              obtain ⟨l, w, hl, hw, e⟩ := ih'.1 ss' names hp'
              exact ⟨(dashes two ++ n ++ b!"=" ++ v) :: l, w, .joined two n v _ hk hfit hl, hw,
                by rw [hs, e]; rfl⟩
            · intro h'
              obtain ⟨ss, l, s', r, hl, hh, e⟩ := ih'.2 (cons_help _ _ h')
              exact ⟨_, (dashes two ++ n ++ b!"=" ++ v) :: l, s', r, .joined two n v _ hk hfit hl, hh,
                by rw [hs, e]; rfl⟩
          · rw [if_neg hv] at hp'
            subst hp'
            exact ⟨fun _ _ h => (by cases h), fun h => (by cases h)⟩
        by_cases hb : f.kind = .bool
        · exact goal _ (by rw [if_pos hb]; rfl)
        · exact goal _ (by rw [if_neg hb])

end Sqddl.CommandLine
