import Verif.Basic

/-!
# ddl struct tags: /repo/ddl/modifier.go
-/

namespace Sqddl

/-- /repo/ddl/modifier.go:13-30 `Modifier` -/
inductive Modifier
  | mk (dialects : List Str) (name raw value : Str) (subs : List Modifier)

namespace Modifier
/-- field `Dialects` -/
def dialects : Modifier → List Str | mk d _ _ _ _ => d
/-- field `Name` -/
def name : Modifier → Str | mk _ n _ _ _ => n
/-- field `RawValue` -/
def raw : Modifier → Str | mk _ _ r _ _ => r
/-- field `Value` -/
def value : Modifier → Str | mk _ _ _ v _ => v
/-- field `Submodifiers` -/
def subs : Modifier → List Modifier | mk _ _ _ _ s => s
end Modifier

/-- /repo/ddl/modifier.go:143-158, the loop of popValue: the text up to the first space outside of
braces, the remaining text, and the brace level at the end.  Braces count only if `quoted`. -/
def valueLoop (quoted : Bool) (level : Nat) : Str → Str × Str × Nat
  | [] => ([], [], level)
  | c :: s =>
    if c = ' ' ∧ level = 0 then ([], c :: s, level)
    else
      let level' := if quoted then (if c = '{' then level + 1 else if c = '}' then level - 1 else level)
        else level
      let (v, r, l) := valueLoop quoted level' s
      (c :: v, r, l)

/-- /repo/ddl/modifier.go:135-171 `popValue`: value and remainder; `none` is the error "unclosed
brace".  (`whitespaceIndex > 0` always holds if a space was found, since `s` does not start with
one.) -/
def popValue (s : Str) : Option (Str × Str) :=
  match s.dropWhile (· == ' ') with
  | [] => some ([], [])
  | c :: t =>
    let quoted := c == '{'
    let (v, r, level) := valueLoop quoted 0 (c :: t)
    if level > 0 then none
    else if quoted then some ((v.drop 1).take (v.length - 2), r)
    else some (v, r)

/-- strings.Split(s, ",") -/
def splitComma : Str → List Str
  | [] => [[]]
  | c :: s =>
    if c = ',' then [] :: splitComma s
    else match splitComma s with
      | [] => [[c]]
      | x :: r => (c :: x) :: r

/-- /repo/ddl/modifier.go:205-208: dialects in front of the name. -/
def withDialects (name raw : Str) : Modifier :=
  match name.findIdx? (· == ':') with
  | some i => .mk (splitComma (name.take i)) (name.drop (i + 1)) raw [] []
  | none => .mk [] name raw [] []

/-- /repo/ddl/modifier.go:174-210 `popModifier`: modifier and remainder; `none` is an error. -/
def popModifier (s : Str) : Option (Modifier × Str) :=
  match s.dropWhile (· == ' ') with
  | [] => some (.mk [] [] [] [] [], [])
  | c :: t =>
    let s := c :: t
    let name := s.takeWhile fun c => c ≠ ' ' ∧ c ≠ '='
    match s.drop name.length with
    | '=' :: r =>
      if r.head? = some ' ' then some (.mk [] name [] [] [], r)
      else match popValue r with
        | none => none
        | some (raw, r') => some (withDialects name raw, r')
    | r => some (withDialects name [], r)

theorem valueLoop_length (q : Bool) (l : Nat) (s : Str) : (valueLoop q l s).2.1.length ≤ s.length := by
  induction s generalizing l with
  | nil => simp [valueLoop]
  | cons c s ih =>
    simp only [valueLoop]
    split
    · simp
    · simp only [List.length_cons]
      exact Nat.le_succ_of_le (ih _)

theorem popValue_length {s v r : Str} (h : popValue s = some (v, r)) : r.length ≤ s.length := by
  unfold popValue at h
  have hd := (List.dropWhile_sublist (· == ' ') (l := s)).length_le
  split at h
  · simp at h; simp [h.2]
  · rename_i c t hs
    have := valueLoop_length (c == '{') 0 (c :: t)
    rw [hs] at hd
    simp only at h
    split at h
    · simp at h
    · split at h <;> (simp at h; rw [← h.2]; exact Nat.le_trans this hd)

theorem popModifier_length {s : Str} {m : Modifier} {r : Str} (hs : s ≠ [])
    (h : popModifier s = some (m, r)) : r.length < s.length := by
  unfold popModifier at h
  have hd := (List.dropWhile_sublist (· == ' ') (l := s)).length_le
  have hpos : 0 < s.length := List.length_pos_iff.2 hs
  split at h
  · simp at h; rw [h.2]; simpa using hpos
  · rename_i c t hct
    rw [hct] at hd
    have hc : c ≠ ' ' := by
      have := List.head?_dropWhile_not (· == ' ') s
      rw [hct] at this
      simpa using this
    simp only at h
    generalize hn : (c :: t).takeWhile (fun c => decide (c ≠ ' ' ∧ c ≠ '=')) = name at h
    have hl : ((c :: t).drop name.length).length = (c :: t).length - name.length := by simp
    have hname : c ≠ '=' → name ≠ [] := by
      intro hc2 h0
      rw [h0, List.takeWhile_cons] at hn
      simp [hc, hc2] at hn
    split at h
    · rename_i r0 hr0
      have hlen := congrArg List.length hr0
      simp at hlen
      split at h
      · simp at h; rw [← h.2]; simp at hd; omega
      · split at h
        · simp at h
        · rename_i raw r' hp
          have := popValue_length hp
          simp at h; rw [← h.2]; simp at hd; omega
    · rename_i hne
      simp at h
      rw [← h.2]
      have hnn : name ≠ [] := by
        apply hname
        rintro rfl
        have h0 : name = [] := by rw [← hn]; simp
        rw [h0] at hne
        exact hne t rfl
      have := List.length_pos_iff.2 hnn
      simp at hd ⊢; omega

/-- /repo/ddl/modifier.go:33-49, the loop of NewModifiers; the number bounds the runs of the loop. -/
def newModifiersLoop : Nat → Str → List Modifier × Bool
  | 0, _ => ([], true)
  | n + 1, s =>
    if s = [] then ([], true)
    else match popModifier s with
      | none => ([], false)
      | some (m, r) =>
        let (ms, ok) := newModifiersLoop n r
        (if m.name = [] then ms else m :: ms, ok)

/-- /repo/ddl/modifier.go:33-49 `NewModifiers`: the modifiers read, and whether all of the text
could be read (`false`: an error is returned as well).  Each run of the loop takes a byte from the
text (`popModifier_length`), so that the length of the text bounds the number of runs. -/
def newModifiers (s : Str) : List Modifier × Bool := newModifiersLoop s.length s

theorem newModifiersLoop_bound (n : Nat) : ∀ s : Str, s.length ≤ n →
    newModifiersLoop n s = newModifiers s := by
  induction n using Nat.strongRecOn with
  | ind n ih =>
    intro s hs
    unfold newModifiers
    cases n with
    | zero => have : s = [] := by simpa using hs
              subst this; rfl
    | succ n =>
      cases s with
      | nil => simp [newModifiersLoop]
      | cons c s =>
        simp only [List.length_cons, newModifiersLoop]
        split
        · rfl
        · cases h : popModifier (c :: s) with
          | none => rfl
          | some x =>
            obtain ⟨m, r⟩ := x
            have hl := popModifier_length (by simp) h
            dsimp only
            simp only [List.length_cons] at hl hs
            rw [ih n (by omega) r (by omega)]
            by_cases hn : s.length < n + 1
            · rw [ih s.length hn r (by omega)]
            · omega

/-- One run of the loop. -/
theorem newModifiers_eq (s : Str) : newModifiers s =
    if s = [] then ([], true)
    else match popModifier s with
      | none => ([], false)
      | some (m, r) =>
        let (ms, ok) := newModifiers r
        (if m.name = [] then ms else m :: ms, ok) := by
  rw [newModifiers]
  cases s with
  | nil => rfl
  | cons c s =>
    simp only [List.length_cons, newModifiersLoop]
    split
    · rfl
    · cases h : popModifier (c :: s) with
      | none => rfl
      | some x =>
        obtain ⟨m, r⟩ := x
        have hl := popModifier_length (by simp) h
        dsimp only
        simp only [List.length_cons] at hl
        rw [newModifiersLoop_bound s.length r (by omega)]

/-- /repo/ddl/modifier.go:78-90 `ParseRawValue`: the modifier with `Value` and `Submodifiers`
filled in, and whether there was no error. -/
def parseRawValue : Modifier → Modifier × Bool
  | .mk d n raw v subs =>
    if raw = [] then (.mk d n raw v subs, true)
    else match popValue raw with
      | none => (.mk d n raw (raw.dropWhile (· == ' ')) subs, false)
      | some (v', r) => let (ms, ok) := newModifiers r; (.mk d n raw v' ms, ok)

/-- /repo/ddl/modifier.go:64-74 `ExcludesDialect` -/
def excludesDialect (m : Modifier) (dialect : Str) : Bool :=
  if m.dialects = [] then false else !(m.dialects.any (· == dialect))

mutual
/-- /repo/ddl/modifier.go:93-131 `writeBuf`: the buffer after writing one modifier to it. -/
def writeBuf (buf : Str) : Modifier → Str
  | .mk _ name raw value subs =>
    if name = [] then buf
    else
      let buf := (if buf.length > 1 ∧ buf.getLast? ≠ some ' ' then buf ++ b!" " else buf) ++ name
      if raw ≠ [] then
        if ' ' ∈ raw then buf ++ b!"={" ++ raw ++ b!"}" else buf ++ b!"=" ++ raw
      else if value = [] ∧ subs = [] then buf
      else
        let braces : Bool := ' ' ∈ value ∨ subs ≠ []
        let buf := buf ++ b!"=" ++ (if braces then b!"{" else [])
        let buf := buf ++ (if value = [] then b!"." else if ' ' ∈ value then b!"{" ++ value ++ b!"}"
          else value)
        writeBufs buf subs ++ (if braces then b!"}" else [])
/-- /repo/ddl/modifier.go:56-58, 125-127: one modifier after the other. -/
def writeBufs (buf : Str) : List Modifier → Str
  | [] => buf
  | m :: ms => writeBufs (writeBuf buf m) ms
end

/-- /repo/ddl/modifier.go:52-60 `Modifiers.String` -/
def printModifiers (ms : List Modifier) : Str := writeBufs [] ms

end Sqddl
