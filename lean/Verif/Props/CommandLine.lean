import Verif.Lemmas.Flag
import Verif.Props.Programs
/-!
# C73: command lines
-/
namespace Migp.Props
open Migp Spec Http Mutator

variable {E : Ext}

/-! ## The flags of the programs -/

theorem server_defines : Defines ServerFlags.formal serverFlags where
  mem := by
    intro name v h
    unfold ServerFlags.formal at h
    repeat' split at h
    all_goals first | (cases h; subst_vars; decide) | cases h
  kind := by
    intro name k h
    simp only [serverFlags, List.mem_cons, List.not_mem_nil, or_false, Prod.mk.injEq] at h
    rcases h with ⟨rfl, rfl⟩ | ⟨rfl, rfl⟩ | ⟨rfl, rfl⟩ | ⟨rfl, rfl⟩ | ⟨rfl, rfl⟩ | ⟨rfl, rfl⟩ | ⟨rfl, rfl⟩ <;>
      exact ⟨_, rfl, rfl⟩
  names := by
    intro x h
    simp only [serverFlags, List.mem_cons, List.not_mem_nil, or_false] at h
    rcases h with rfl | rfl | rfl | rfl | rfl | rfl | rfl <;> exact ⟨by decide, by decide, by decide⟩
  help := ⟨rfl, rfl⟩

theorem client_defines : Defines ClientFlags.formal clientFlags where
  mem := by
    intro name v h
    unfold ClientFlags.formal at h
    repeat' split at h
    all_goals first | (cases h; subst_vars; decide) | cases h
  kind := by
    intro name k h
    simp only [clientFlags, List.mem_cons, List.not_mem_nil, or_false, Prod.mk.injEq] at h
    rcases h with ⟨rfl, rfl⟩ | ⟨rfl, rfl⟩ | ⟨rfl, rfl⟩ | ⟨rfl, rfl⟩ | ⟨rfl, rfl⟩ <;>
      exact ⟨_, rfl, rfl⟩
  names := by
    intro x h
    simp only [clientFlags, List.mem_cons, List.not_mem_nil, or_false] at h
    rcases h with rfl | rfl | rfl | rfl | rfl <;> exact ⟨by decide, by decide, by decide⟩
  help := ⟨rfl, rfl⟩

/-- A string variable after a call of `Set`. -/
theorem put_bool {F : Type} {set : Bool → F → F} {value : GoString} {f f' : F} (h : (FlagVar.bool set).put value f = some f') :
    ∃ b, IsBoolText value b ∧ f' = set b f := by
  unfold FlagVar.put at h
  cases hb : parseBool value with
  | none => simp [hb] at h
  | some b => rw [hb] at h; exact ⟨b, (parseBool_iff _ _).mp hb, (Option.some.inj h).symm⟩

theorem put_int {F : Type} {set : Int → F → F} {value : GoString} {f f' : F} (h : (FlagVar.int set).put value f = some f') :
    ∃ b, IsIntText value b ∧ f' = set b f := by
  unfold FlagVar.put at h
  cases hb : parseInt value with
  | none => simp [hb] at h
  | some b => rw [hb] at h; exact ⟨b, (parseInt_iff _ _).mp hb, (Option.some.inj h).symm⟩

theorem put_string {F : Type} {set : GoString → F → F} {value : GoString} {f f' : F}
    (h : (FlagVar.string set).put value f = some f') : f' = set value f := (Option.some.inj h).symm

/-- Each variable of the server is set by its flag alone. -/
theorem server_put {n : GoString} {v : FlagVar ServerFlags} {value : GoString} {f f' : ServerFlags}
    (hv : ServerFlags.formal n = some v) (h : v.put value f = some f') :
    (n = ascii "config" ∧ f' = { f with config := value }) ∨
    (n = ascii "listen" ∧ f' = { f with listen := value }) ∨
    (n = ascii "dump-config" ∧ ∃ b, IsBoolText value b ∧ f' = { f with dumpConfig := b }) ∨
    (n = ascii "infile" ∧ f' = { f with infile := value }) ∨
    (n = ascii "metadata" ∧ f' = { f with metadata := value }) ∨
    (n = ascii "num-variants" ∧ ∃ b, IsIntText value b ∧ f' = { f with numVariants := b }) ∨
    (n = ascii "username-variant" ∧ ∃ b, IsBoolText value b ∧ f' = { f with usernameVariant := b }) := by
  unfold ServerFlags.formal at hv
  split at hv
  · next hn => cases hv; exact .inl ⟨hn, put_string h⟩
  split at hv
  · next hn => cases hv; exact .inr (.inl ⟨hn, put_string h⟩)
  split at hv
  · next hn => cases hv; exact .inr (.inr (.inl ⟨hn, put_bool h⟩))
  split at hv
  · next hn => cases hv; exact .inr (.inr (.inr (.inl ⟨hn, put_string h⟩)))
  split at hv
  · next hn => cases hv; exact .inr (.inr (.inr (.inr (.inl ⟨hn, put_string h⟩))))
  split at hv
  · next hn => cases hv; exact .inr (.inr (.inr (.inr (.inr (.inl ⟨hn, put_int h⟩)))))
  split at hv
  · next hn => cases hv; exact .inr (.inr (.inr (.inr (.inr (.inr ⟨hn, put_bool h⟩)))))
  cases hv

/-- Each variable of the client is set by its flag alone. -/
theorem client_put {n : GoString} {v : FlagVar ClientFlags} {value : GoString} {f f' : ClientFlags}
    (hv : ClientFlags.formal n = some v) (h : v.put value f = some f') :
    (n = ascii "config" ∧ f' = { f with config := value }) ∨
    (n = ascii "dump-config" ∧ ∃ b, IsBoolText value b ∧ f' = { f with dumpConfig := b }) ∨
    (n = ascii "show-password" ∧ ∃ b, IsBoolText value b ∧ f' = { f with showPassword := b }) ∨
    (n = ascii "infile" ∧ f' = { f with infile := value }) ∨
    (n = ascii "target" ∧ f' = { f with target := value }) := by
  unfold ClientFlags.formal at hv
  split at hv
  · next hn => cases hv; exact .inl ⟨hn, put_string h⟩
  split at hv
  · next hn => cases hv; exact .inr (.inl ⟨hn, put_bool h⟩)
  split at hv
  · next hn => cases hv; exact .inr (.inr (.inl ⟨hn, put_bool h⟩))
  split at hv
  · next hn => cases hv; exact .inr (.inr (.inr (.inl ⟨hn, put_string h⟩)))
  split at hv
  · next hn => cases hv; exact .inr (.inr (.inr (.inr ⟨hn, put_string h⟩)))
  cases hv

theorem server_putAll {ss : List (GoString × GoString)} {f : ServerFlags}
    (h : putAll ServerFlags.formal ServerFlags.defaults ss = some f) : ServerFlagsAre ss f := by
  have last : ∀ {α : Type} (name : String) (π : ServerFlags → α) (R : GoString → α → Prop),
      (∀ n v value f f', ServerFlags.formal n = some v → v.put value f = some f' → n ≠ ascii name → π f' = π f) →
      (∀ v value f f', ServerFlags.formal (ascii name) = some v → v.put value f = some f' → R value (π f')) →
      Last ss name (R · (π f)) (π f = π ServerFlags.defaults) :=
    fun name π R h1 h2 => putAll_last server_defines name π R h1 h2 ss _ _ h
  constructor
  · refine last "config" ServerFlags.config (fun v x => x = v) ?_ ?_
    · intro n v value f f' hv hp hn
      rcases server_put hv hp with ⟨rfl, rfl⟩ | ⟨rfl, rfl⟩ | ⟨rfl, b, -, rfl⟩ | ⟨rfl, rfl⟩ | ⟨rfl, rfl⟩ | ⟨rfl, b, -, rfl⟩ | ⟨rfl, b, -, rfl⟩ <;>
        first | rfl | exact absurd rfl hn
    · intro v value f f' hv hp
      rcases server_put hv hp with ⟨h, rfl⟩ | ⟨h, rfl⟩ | ⟨h, b, hb, rfl⟩ | ⟨h, rfl⟩ | ⟨h, rfl⟩ | ⟨h, b, hb, rfl⟩ | ⟨h, b, hb, rfl⟩ <;>
        first | rfl | exact absurd h (by decide)
  · refine last "listen" ServerFlags.listen (fun v x => x = v) ?_ ?_
    · intro n v value f f' hv hp hn
      rcases server_put hv hp with ⟨rfl, rfl⟩ | ⟨rfl, rfl⟩ | ⟨rfl, b, -, rfl⟩ | ⟨rfl, rfl⟩ | ⟨rfl, rfl⟩ | ⟨rfl, b, -, rfl⟩ | ⟨rfl, b, -, rfl⟩ <;>
        first | rfl | exact absurd rfl hn
    · intro v value f f' hv hp
      rcases server_put hv hp with ⟨h, rfl⟩ | ⟨h, rfl⟩ | ⟨h, b, hb, rfl⟩ | ⟨h, rfl⟩ | ⟨h, rfl⟩ | ⟨h, b, hb, rfl⟩ | ⟨h, b, hb, rfl⟩ <;>
        first | rfl | exact absurd h (by decide)
  · refine last "dump-config" ServerFlags.dumpConfig IsBoolText ?_ ?_
    · intro n v value f f' hv hp hn
      rcases server_put hv hp with ⟨rfl, rfl⟩ | ⟨rfl, rfl⟩ | ⟨rfl, b, -, rfl⟩ | ⟨rfl, rfl⟩ | ⟨rfl, rfl⟩ | ⟨rfl, b, -, rfl⟩ | ⟨rfl, b, -, rfl⟩ <;>
        first | rfl | exact absurd rfl hn
    · intro v value f f' hv hp
      rcases server_put hv hp with ⟨h, rfl⟩ | ⟨h, rfl⟩ | ⟨h, b, hb, rfl⟩ | ⟨h, rfl⟩ | ⟨h, rfl⟩ | ⟨h, b, hb, rfl⟩ | ⟨h, b, hb, rfl⟩ <;>
        first | exact absurd h (by decide) | exact hb
  · refine last "infile" ServerFlags.infile (fun v x => x = v) ?_ ?_
    · intro n v value f f' hv hp hn
      rcases server_put hv hp with ⟨rfl, rfl⟩ | ⟨rfl, rfl⟩ | ⟨rfl, b, -, rfl⟩ | ⟨rfl, rfl⟩ | ⟨rfl, rfl⟩ | ⟨rfl, b, -, rfl⟩ | ⟨rfl, b, -, rfl⟩ <;>
        first | rfl | exact absurd rfl hn
    · intro v value f f' hv hp
      rcases server_put hv hp with ⟨h, rfl⟩ | ⟨h, rfl⟩ | ⟨h, b, hb, rfl⟩ | ⟨h, rfl⟩ | ⟨h, rfl⟩ | ⟨h, b, hb, rfl⟩ | ⟨h, b, hb, rfl⟩ <;>
        first | rfl | exact absurd h (by decide)
  · refine last "metadata" ServerFlags.metadata (fun v x => x = v) ?_ ?_
    · intro n v value f f' hv hp hn
      rcases server_put hv hp with ⟨rfl, rfl⟩ | ⟨rfl, rfl⟩ | ⟨rfl, b, -, rfl⟩ | ⟨rfl, rfl⟩ | ⟨rfl, rfl⟩ | ⟨rfl, b, -, rfl⟩ | ⟨rfl, b, -, rfl⟩ <;>
        first | rfl | exact absurd rfl hn
    · intro v value f f' hv hp
      rcases server_put hv hp with ⟨h, rfl⟩ | ⟨h, rfl⟩ | ⟨h, b, hb, rfl⟩ | ⟨h, rfl⟩ | ⟨h, rfl⟩ | ⟨h, b, hb, rfl⟩ | ⟨h, b, hb, rfl⟩ <;>
        first | rfl | exact absurd h (by decide)
  · refine last "num-variants" ServerFlags.numVariants IsIntText ?_ ?_
    · intro n v value f f' hv hp hn
      rcases server_put hv hp with ⟨rfl, rfl⟩ | ⟨rfl, rfl⟩ | ⟨rfl, b, -, rfl⟩ | ⟨rfl, rfl⟩ | ⟨rfl, rfl⟩ | ⟨rfl, b, -, rfl⟩ | ⟨rfl, b, -, rfl⟩ <;>
        first | rfl | exact absurd rfl hn
    · intro v value f f' hv hp
      rcases server_put hv hp with ⟨h, rfl⟩ | ⟨h, rfl⟩ | ⟨h, b, hb, rfl⟩ | ⟨h, rfl⟩ | ⟨h, rfl⟩ | ⟨h, b, hb, rfl⟩ | ⟨h, b, hb, rfl⟩ <;>
        first | exact absurd h (by decide) | exact hb
  · refine last "username-variant" ServerFlags.usernameVariant IsBoolText ?_ ?_
    · intro n v value f f' hv hp hn
      rcases server_put hv hp with ⟨rfl, rfl⟩ | ⟨rfl, rfl⟩ | ⟨rfl, b, -, rfl⟩ | ⟨rfl, rfl⟩ | ⟨rfl, rfl⟩ | ⟨rfl, b, -, rfl⟩ | ⟨rfl, b, -, rfl⟩ <;>
        first | rfl | exact absurd rfl hn
    · intro v value f f' hv hp
      rcases server_put hv hp with ⟨h, rfl⟩ | ⟨h, rfl⟩ | ⟨h, b, hb, rfl⟩ | ⟨h, rfl⟩ | ⟨h, rfl⟩ | ⟨h, b, hb, rfl⟩ | ⟨h, b, hb, rfl⟩ <;>
        first | exact absurd h (by decide) | exact hb

theorem client_putAll {ss : List (GoString × GoString)} {f : ClientFlags}
    (h : putAll ClientFlags.formal ClientFlags.defaults ss = some f) : ClientFlagsAre ss f := by
  have last : ∀ {α : Type} (name : String) (π : ClientFlags → α) (R : GoString → α → Prop),
      (∀ n v value f f', ClientFlags.formal n = some v → v.put value f = some f' → n ≠ ascii name → π f' = π f) →
      (∀ v value f f', ClientFlags.formal (ascii name) = some v → v.put value f = some f' → R value (π f')) →
      Last ss name (R · (π f)) (π f = π ClientFlags.defaults) :=
    fun name π R h1 h2 => putAll_last client_defines name π R h1 h2 ss _ _ h
  constructor
  · refine last "config" ClientFlags.config (fun v x => x = v) ?_ ?_
    · intro n v value f f' hv hp hn
      rcases client_put hv hp with ⟨rfl, rfl⟩ | ⟨rfl, b, -, rfl⟩ | ⟨rfl, b, -, rfl⟩ | ⟨rfl, rfl⟩ | ⟨rfl, rfl⟩ <;>
        first | rfl | exact absurd rfl hn
    · intro v value f f' hv hp
      rcases client_put hv hp with ⟨h, rfl⟩ | ⟨h, b, hb, rfl⟩ | ⟨h, b, hb, rfl⟩ | ⟨h, rfl⟩ | ⟨h, rfl⟩ <;>
        first | rfl | exact absurd h (by decide)
  · refine last "dump-config" ClientFlags.dumpConfig IsBoolText ?_ ?_
    · intro n v value f f' hv hp hn
      rcases client_put hv hp with ⟨rfl, rfl⟩ | ⟨rfl, b, -, rfl⟩ | ⟨rfl, b, -, rfl⟩ | ⟨rfl, rfl⟩ | ⟨rfl, rfl⟩ <;>
        first | rfl | exact absurd rfl hn
    · intro v value f f' hv hp
      rcases client_put hv hp with ⟨h, rfl⟩ | ⟨h, b, hb, rfl⟩ | ⟨h, b, hb, rfl⟩ | ⟨h, rfl⟩ | ⟨h, rfl⟩ <;>
        first | exact absurd h (by decide) | exact hb
  · refine last "show-password" ClientFlags.showPassword IsBoolText ?_ ?_
    · intro n v value f f' hv hp hn
      rcases client_put hv hp with ⟨rfl, rfl⟩ | ⟨rfl, b, -, rfl⟩ | ⟨rfl, b, -, rfl⟩ | ⟨rfl, rfl⟩ | ⟨rfl, rfl⟩ <;>
        first | rfl | exact absurd rfl hn
    · intro v value f f' hv hp
      rcases client_put hv hp with ⟨h, rfl⟩ | ⟨h, b, hb, rfl⟩ | ⟨h, b, hb, rfl⟩ | ⟨h, rfl⟩ | ⟨h, rfl⟩ <;>
        first | exact absurd h (by decide) | exact hb
  · refine last "infile" ClientFlags.infile (fun v x => x = v) ?_ ?_
    · intro n v value f f' hv hp hn
      rcases client_put hv hp with ⟨rfl, rfl⟩ | ⟨rfl, b, -, rfl⟩ | ⟨rfl, b, -, rfl⟩ | ⟨rfl, rfl⟩ | ⟨rfl, rfl⟩ <;>
        first | rfl | exact absurd rfl hn
    · intro v value f f' hv hp
      rcases client_put hv hp with ⟨h, rfl⟩ | ⟨h, b, hb, rfl⟩ | ⟨h, b, hb, rfl⟩ | ⟨h, rfl⟩ | ⟨h, rfl⟩ <;>
        first | rfl | exact absurd h (by decide)
  · refine last "target" ClientFlags.target (fun v x => x = v) ?_ ?_
    · intro n v value f f' hv hp hn
      rcases client_put hv hp with ⟨rfl, rfl⟩ | ⟨rfl, b, -, rfl⟩ | ⟨rfl, b, -, rfl⟩ | ⟨rfl, rfl⟩ | ⟨rfl, rfl⟩ <;>
        first | rfl | exact absurd rfl hn
    · intro v value f f' hv hp
      rcases client_put hv hp with ⟨h, rfl⟩ | ⟨h, b, hb, rfl⟩ | ⟨h, b, hb, rfl⟩ | ⟨h, rfl⟩ | ⟨h, rfl⟩ <;>
        first | rfl | exact absurd h (by decide)

/-! ## What a command line means -/

/-- C73: a command line that gives the server values for its flags, in any of the spellings and any number of times, and
then ends, or goes on with a word that stops the flags, starts the server with the last value of each flag, or its default; a
configuration is read from a file exactly if the name is not empty, and the credentials come from standard input
exactly if the name is `-`. -/
theorem C73_server {argv ws tail : List GoString} {ss : List (GoString × GoString)} (ha : argv = ws ++ tail)
    (hs : Settings serverFlags ws ss) (ht : Stops tail) :
    ∃ f, ServerFlagsAre ss f ∧ ∀ files key stale chunk,
      serverProgram E argv files key stale chunk =
        .ran (serverMain E
          { config := if f.config = [] then none else some (files.readFile f.config)
            dumpConfig := f.dumpConfig, metadata := f.metadata, numVariants := f.numVariants
            usernameVariant := f.usernameVariant
            infile := if f.infile = ascii "-" then some files.stdin else files.scanFile f.infile } key stale chunk)
          f.listen := by
  subst ha
  obtain ⟨f, h1, h2⟩ := flagParse_settings server_defines hs ServerFlags.defaults
  refine ⟨f, server_putAll h1, fun files key stale chunk => ?_⟩
  obtain ⟨rest, h3⟩ := flagParse_stops (formal := ServerFlags.formal) f ht
  unfold serverProgram
  rw [h2, h3]
  have e : ascii "" = [] := rfl
  unfold ServerFlags.args
  rw [e]
  simp only [ne_eq, ite_not]

/-- C73: every other command line ends the server before it reads any file: with status 0 if settings are followed by a
word that asks for help, and otherwise with status 2. -/
theorem C73_server_usage {argv : List GoString}
    (hno : ¬ ∃ ws ss tail, argv = ws ++ tail ∧ Settings serverFlags ws ss ∧ Stops tail) (files : Files)
    (key : PrivateKey) (stale : Nat → Nat → UInt8) (chunk : Nat → Nat) :
    ((∃ ws ss w tail, argv = ws ++ w :: tail ∧ Settings serverFlags ws ss ∧ AsksHelp w) →
      serverProgram E argv files key stale chunk = .usage 0) ∧
    ((¬ ∃ ws ss w tail, argv = ws ++ w :: tail ∧ Settings serverFlags ws ss ∧ AsksHelp w) →
      serverProgram E argv files key stale chunk = .usage 2) := by
  unfold serverProgram
  constructor
  · rintro ⟨ws, ss, w, tail, rfl, hs, hw⟩
    obtain ⟨f, -, h2⟩ := flagParse_settings server_defines hs ServerFlags.defaults
    rw [h2, flagParse_help server_defines f tail hw]
  · intro hh
    have := flagParse_inv server_defines argv ServerFlags.defaults
    revert this
    cases flagParse ServerFlags.formal ServerFlags.defaults argv with
    | parsed f rest => intro h; exact absurd h hno
    | help => intro h; exact absurd h hh
    | bad => intro _; rfl

/-- C73: the same for the client; the configuration and the evaluations are asked for at the target followed by `/config` and
`/evaluate`. -/
theorem C73_client {argv ws tail : List GoString} {ss : List (GoString × GoString)} (ha : argv = ws ++ tail)
    (hs : Settings clientFlags ws ss) (ht : Stops tail) :
    ∃ f, ClientFlagsAre ss f ∧ ∀ files get post rand stale chunk,
      clientProgram E argv files get post rand stale chunk =
        .ran (clientMain E
          { config := if f.config = [] then none else some (files.readFile f.config)
            dumpConfig := f.dumpConfig, showPassword := f.showPassword
            infile := if f.infile = ascii "-" then some files.stdin else files.scanFile f.infile }
          (get (f.target ++ ascii "/config")) (fun k => post k (f.target ++ ascii "/evaluate")) rand stale chunk) := by
  subst ha
  obtain ⟨f, h1, h2⟩ := flagParse_settings client_defines hs ClientFlags.defaults
  refine ⟨f, client_putAll h1, fun files get post rand stale chunk => ?_⟩
  obtain ⟨rest, h3⟩ := flagParse_stops (formal := ClientFlags.formal) f ht
  unfold clientProgram
  rw [h2, h3]
  have e : ascii "" = [] := rfl
  unfold ClientFlags.args
  rw [e]
  simp only [ne_eq, ite_not]

/-- C73: every other command line ends the client before it reads any file or sends any message. -/
theorem C73_client_usage {argv : List GoString}
    (hno : ¬ ∃ ws ss tail, argv = ws ++ tail ∧ Settings clientFlags ws ss ∧ Stops tail) (files : Files)
    (get : GoString → Transport) (post : Nat → GoString → Bytes → Transport) (rand : Nat → (S : Suite) → ZMod S.q)
    (stale : Nat → Nat → UInt8) (chunk : Nat → Nat) :
    ((∃ ws ss w tail, argv = ws ++ w :: tail ∧ Settings clientFlags ws ss ∧ AsksHelp w) →
      clientProgram E argv files get post rand stale chunk = .usage 0) ∧
    ((¬ ∃ ws ss w tail, argv = ws ++ w :: tail ∧ Settings clientFlags ws ss ∧ AsksHelp w) →
      clientProgram E argv files get post rand stale chunk = .usage 2) := by
  unfold clientProgram
  constructor
  · rintro ⟨ws, ss, w, tail, rfl, hs, hw⟩
    obtain ⟨f, -, h2⟩ := flagParse_settings client_defines hs ClientFlags.defaults
    rw [h2, flagParse_help client_defines f tail hw]
  · intro hh
    have := flagParse_inv client_defines argv ClientFlags.defaults
    revert this
    cases flagParse ClientFlags.formal ClientFlags.defaults argv with
    | parsed f rest => intro h; exact absurd h hno
    | help => intro h; exact absurd h hh
    | bad => intro _; rfl

/-! ## Consequences -/

/-- C73: words from the first one that is not a flag on have no effect on either program, whatever they are. -/
theorem C73_ignored {ws tail : List GoString} {ss : List (GoString × GoString)} (ht : Stops tail) (files : Files)
    (stale : Nat → Nat → UInt8) (chunk : Nat → Nat) :
    (Settings serverFlags ws ss → ∀ key, serverProgram E (ws ++ tail) files key stale chunk =
      serverProgram E ws files key stale chunk) ∧
    (Settings clientFlags ws ss → ∀ get post rand, clientProgram E (ws ++ tail) files get post rand stale chunk =
      clientProgram E ws files get post rand stale chunk) := by
  constructor
  · intro hs key
    obtain ⟨f, -, h2⟩ := flagParse_settings server_defines hs ServerFlags.defaults
    obtain ⟨rest, h3⟩ := flagParse_stops (formal := ServerFlags.formal) f ht
    obtain ⟨rest', h4⟩ := flagParse_stops (formal := ServerFlags.formal) f (tail := []) (.inl rfl)
    have h5 := h2 []
    rw [List.append_nil, h4] at h5
    unfold serverProgram
    rw [h2, h3, h5]
  · intro hs get post rand
    obtain ⟨f, -, h2⟩ := flagParse_settings client_defines hs ClientFlags.defaults
    obtain ⟨rest, h3⟩ := flagParse_stops (formal := ClientFlags.formal) f ht
    obtain ⟨rest', h4⟩ := flagParse_stops (formal := ClientFlags.formal) f (tail := []) (.inl rfl)
    have h5 := h2 []
    rw [List.append_nil, h4] at h5
    unfold clientProgram
    rw [h2, h3, h5]

/-- Settings one after the other. -/
theorem Settings.append {flags : List (GoString × FlagKind)} {ws ws' : List GoString} {ss ss' : List (GoString × GoString)}
    (h : Settings flags ws ss) (h' : Settings flags ws' ss') : Settings flags (ws ++ ws') (ss ++ ss') := by
  induction h with
  | nil => exact h'
  | cons h1 h2 _ ih =>
    rw [List.append_assoc, List.cons_append]
    exact .cons h1 h2 ih

/-- The last of several settings counts. -/
theorem Last.snoc {ss : List (GoString × GoString)} {name : String} {value : GoString} {P : GoString → Prop} {Q : Prop}
    (h : Last (ss ++ [(ascii name, value)]) name P Q) : P value := by
  rcases h with ⟨before, v, after, h1, h2, h3⟩ | ⟨h, -⟩
  · rcases List.eq_nil_or_concat after with rfl | ⟨a, x, rfl⟩
    · have := List.append_inj_right' h1 rfl
      cases this
      exact h3
    · exfalso
      have h4 : ss ++ [(ascii name, value)] = (before ++ (ascii name, v) :: a) ++ [x] := by
        rw [h1]; simp
      have := List.append_inj_right' h4 rfl
      cases this
      exact h2 (ascii name, value) (by simp) rfl
  · exact absurd rfl (h (ascii name, value) (by simp))

/-- C73: a truth value cannot be given in a word of its own. A server started with `-username-variant` and then the word
`false` (or any other word without a dash) stores entries for usernames, and ignores all flags that follow. -/
theorem C73_username_variant {ws rest : List GoString} {ss : List (GoString × GoString)} {d v : GoString}
    (hs : Settings serverFlags ws ss) (hd : IsDash d) (hv : v.head? ≠ some 45) :
    ∃ f, ServerFlagsAre (ss ++ [(ascii "username-variant", ascii "true")]) f ∧ f.usernameVariant = true ∧
      ∀ files key stale chunk,
        serverProgram E (ws ++ (d ++ ascii "username-variant") :: v :: rest) files key stale chunk =
          .ran (serverMain E
            { config := if f.config = [] then none else some (files.readFile f.config)
              dumpConfig := f.dumpConfig, metadata := f.metadata, numVariants := f.numVariants
              usernameVariant := true
              infile := if f.infile = ascii "-" then some files.stdin else files.scanFile f.infile } key stale chunk)
            f.listen := by
  have h1 : Settings serverFlags (ws ++ [d ++ ascii "username-variant"])
      (ss ++ [(ascii "username-variant", ascii "true")]) := by
    refine Settings.append hs ?_
    have h2 : Settings serverFlags ([d ++ ascii "username-variant"] ++ []) [(ascii "username-variant", ascii "true")] := by
      refine .cons (.bare (by decide) hd rfl) ⟨fun _ => ⟨true, by unfold IsBoolText; decide⟩, fun h => ?_⟩ .nil
      exact absurd h (by decide)
    simpa using h2
  obtain ⟨f, h2, h3⟩ := C73_server (E := E) (argv := ws ++ (d ++ ascii "username-variant") :: v :: rest)
    (tail := v :: rest) (by simp) h1 (.inr ⟨v, rest, rfl, .inr (.inr hv)⟩)
  have hu : f.usernameVariant = true := by
    have := Last.snoc h2.usernameVariant
    cases h : f.usernameVariant with
    | true => rfl
    | false => rw [h] at this; unfold IsBoolText at this; exact absurd this (by decide)
  refine ⟨f, h2, hu, fun files key stale chunk => ?_⟩
  rw [h3, hu]

/-- The word mentions the flag. -/
def Mentions (name w : GoString) : Prop := ∃ d, IsDash d ∧ (w = d ++ name ∨ ∃ value, w = d ++ name ++ ascii "=" ++ value)

/-- C73: unless some word of its command line mentions `-show-password`, the client either ends with its usage or runs
without showing passwords (so that C57_passwords_not_printed applies). -/
theorem C73_show_password {argv : List GoString} (hno : ∀ w ∈ argv, ¬ Mentions (ascii "show-password") w) (files : Files)
    (get : GoString → Transport) (post : Nat → GoString → Bytes → Transport) (rand : Nat → (S : Suite) → ZMod S.q)
    (stale : Nat → Nat → UInt8) (chunk : Nat → Nat) :
    (∃ st, clientProgram E argv files get post rand stale chunk = .usage st) ∨
    ∃ (args : ClientArgs) (target : GoString), args.showPassword = false ∧
      clientProgram E argv files get post rand stale chunk =
        .ran (clientMain E args (get (target ++ ascii "/config")) (fun k => post k (target ++ ascii "/evaluate")) rand
          stale chunk) := by
  by_cases h : ∃ ws ss tail, argv = ws ++ tail ∧ Settings clientFlags ws ss ∧ Stops tail
  · obtain ⟨ws, ss, tail, ha, hs, ht⟩ := h
    obtain ⟨f, h1, h2⟩ := C73_client (E := E) ha hs ht
    refine .inr ⟨_, f.target, ?_, h2 files get post rand stale chunk⟩
    show f.showPassword = false
    rcases h1.showPassword with ⟨before, value, after, rfl, -, -⟩ | ⟨-, h⟩
    · exfalso
      clear h1 h2
      have hmem : ∀ w ∈ ws, ¬ Mentions (ascii "show-password") w :=
        fun w hw => hno w (by rw [ha]; exact List.mem_append_left _ hw)
      clear ha hno
      generalize hss : before ++ (ascii "show-password", value) :: after = ss at hs
      have hin : (ascii "show-password", value) ∈ ss := by rw [← hss]; simp
      clear hss
      induction hs with
      | nil => cases hin
      | @cons name val words rest settings h1 h2 _ ih =>
        rcases List.mem_cons.mp hin with h | h
        · cases h
          cases h1 with
          | @joined d k _ hd => exact hmem _ (by simp) ⟨d, hd, .inr ⟨value, rfl⟩⟩
          | @bare d _ hd => exact hmem (d ++ ascii "show-password") (by simp) ⟨d, hd, .inl rfl⟩
          | @apart d k _ _ hd => exact hmem (d ++ ascii "show-password") (by simp) ⟨d, hd, .inl rfl⟩
        · exact ih (fun w hw => hmem w (List.mem_append_right _ hw)) h
    · exact h
  · obtain ⟨h1, h2⟩ := C73_client_usage (E := E) h files get post rand stale chunk
    by_cases hh : ∃ ws ss w tail, argv = ws ++ w :: tail ∧ Settings clientFlags ws ss ∧ AsksHelp w
    · exact .inl ⟨0, h1 hh⟩
    · exact .inl ⟨2, h2 hh⟩

/-- C73: a decimal numeral without superfluous zeros is read as the number it denotes; digits after a zero are octal, so
that those that contain an 8 or a 9 are refused. -/
theorem C73_numerals :
    (∀ (s : Bytes) (n : Nat), IsDecimal s n → (s.head? ≠ some 48 ∨ s = ascii "0") → n < 2 ^ 63 → IsIntText s n ∧ IsIntText (ascii "-" ++ s) (-n)) ∧
    (∀ (s : Bytes) (n : Int), IsIntText (ascii "0" ++ s) n → (∀ c ∈ s, 48 ≤ c ∧ c ≤ 57) → ∀ c ∈ s, c ≤ 55) ∧
    (∀ (s : Bytes) (n n' : Int), IsIntText s n → IsIntText s n' → n = n') := by
  refine ⟨?_, ?_, ?_⟩
  · intro s n h hz hn
    have key : IsUnsigned s n := by
      have hdig : ∀ {s : Bytes} {n : Nat}, IsDecimal s n → DigitsAre 10 s n ∧ 95 ∉ s ∧ s ≠ [] ∧ s.head? ≠ some 95 := by
        intro s n h
        have hdigit : ∀ d : UInt8, 48 ≤ d.toNat → d.toNat ≤ 57 → DigitIs d (d.toNat - 48) ∧ d.toNat - 48 < 10 ∧ d ≠ 95 := by
          intro d h1 h2
          refine ⟨.inl ⟨d.toNat - 48, by omega, ?_, rfl⟩, by omega, ?_⟩
          · rw [show 48 + (d.toNat - 48) = d.toNat by omega, UInt8.ofNat_toNat]
          · rintro rfl; revert h2; decide
        induction h with
        | @one d h1 h2 =>
          obtain ⟨h3, h4, h5⟩ := hdigit d h1 h2
          have := DigitsAre.snoc (base := 10) .nil h3 h4
          exact ⟨by simpa using this, by simpa using fun h => h5 h.symm, by simp, by simpa using h5⟩
        | @more ds n d h h1 h2 ih =>
          obtain ⟨h3, h4, h5⟩ := hdigit d h1 h2
          obtain ⟨i1, i2, i3, i4⟩ := ih
          refine ⟨.snoc i1 h3 h4, ?_, by simp, ?_⟩
          · simp only [List.mem_append, List.mem_singleton, not_or]
            exact ⟨i2, fun h => h5 h.symm⟩
          · obtain ⟨c, t, rfl⟩ := List.exists_cons_of_ne_nil i3
            simpa using i4
      obtain ⟨h1, h2, h3, h4⟩ := hdig h
      rcases hz with hz | rfl
      · refine .decimal h3 hz h4 (grouped_of_no_underscore _ h2) ?_
        rw [List.filter_eq_self.mpr]
        · exact h1
        · intro x hx
          simp only [ne_eq, decide_not, Bool.not_eq_true', decide_eq_false_iff_not]
          rintro rfl
          exact h2 hx
      · have h0 : n = 0 := by
          have hz0 : ascii "0" = [48] := rfl
          rw [hz0] at h
          generalize hx : ([48] : Bytes) = x at h
          cases h with
          | @one d =>
            cases hx
            rfl
          | @more ds n d h =>
            exfalso
            have h5 := congrArg List.length hx
            have h6 := (hdig h).2.2.1
            cases ds with
            | nil => exact h6 rfl
            | cons a b => simp at h5
        subst h0
        exact .octal (s := []) grouped_nil .nil
    refine ⟨⟨⟨n, .inl ⟨.inl key, rfl⟩⟩, by omega, by omega⟩, ⟨⟨n, .inr ⟨s, rfl, key, rfl⟩⟩, by omega, by omega⟩⟩
  · intro s n h hs c hc
    obtain ⟨⟨m, ⟨h | ⟨s', h, -⟩, -⟩ | ⟨s', h, -⟩⟩, -⟩ := h
    · have key : DigitsAre 8 (s.filter (· ≠ 95)) m := by
        generalize ht : ascii "0" ++ s = t at h
        cases h with
        | decimal h1 h2 => subst ht; exact absurd rfl h2
        | octal h1 h2 => have := List.append_cancel_left ht; subst this; exact h2
        | @prefixed p s' base n h h1 =>
          exfalso
          have hh : ∀ x, s.head? = some x → x ≤ 57 := fun x hx => (hs x (List.mem_of_mem_head? hx)).2
          rcases h with ⟨-, rfl | rfl⟩ | ⟨-, rfl | rfl⟩ | ⟨-, rfl | rfl⟩ <;>
            (cases ht; exact absurd (hh _ rfl) (by decide))
      obtain ⟨d, hd, hcd⟩ := (DigitsFrom.of_isDigits key).mem c (by
        simp only [List.mem_filter, ne_eq, decide_not, Bool.not_eq_true', decide_eq_false_iff_not]
        refine ⟨hc, ?_⟩
        rintro rfl
        exact absurd (hs _ hc).2 (by decide))
      obtain ⟨e, he, rfl, -⟩ := isDigit_value hcd
      have h1 := digitValue_range he
      have h2 := UInt8.le_iff_toNat_le.mp (hs c hc).2
      have h57 : (57 : UInt8).toNat = 57 := rfl
      rw [h57] at h2
      refine UInt8.le_iff_toNat_le.mpr ?_
      have h55 : (55 : UInt8).toNat = 55 := rfl
      rw [h55]
      omega
    · cases h
    · cases h
  · intro s n n' h h'
    have h1 := (parseInt_iff s n).mpr h
    have h2 := (parseInt_iff s n').mpr h'
    exact Option.some.inj (h1.symm.trans h2)

/-- C73: end to end, from the command lines. A server started with settings that name no configuration file (or one with
this configuration), and a client started with settings that name none, whose target is this server: the server
loads the file, and the client prints what looking each of its credentials up in the list of what was loaded gives, with the
metadata, the number of variants and the entries for usernames as on the server's command line. -/
theorem C73_end_to_end {argv ws tail : List GoString} {ss : List (GoString × GoString)} (ha : argv = ws ++ tail)
    (hset : Settings serverFlags ws ss) (htail : Stops tail)
    {argv' ws' tail' : List GoString} {ss' : List (GoString × GoString)} (ha' : argv' = ws' ++ tail')
    (hset' : Settings clientFlags ws' ss') (htail' : Stops tail') :
    ∃ f g, ServerFlagsAre ss f ∧ ClientFlagsAre ss' g ∧
    ∀ {cfg : ServerConfig} {s : Server} {key : PrivateKey} {stale : Nat → Nat → UInt8} {chunk : Nat → Nat}
      {files : Files} {file : Bytes}
      (_ : serverConfig E (if f.config = [] then none else some (files.readFile f.config)) key stale = some cfg)
      (_ : NewServer E cfg = .ok s) (_ : f.dumpConfig = false)
      (_ : (if f.infile = ascii "-" then some files.stdin else files.scanFile f.infile) = some file)
      (_ : 0 ≤ cfg.bucketIDBitSize) (_ : cfg.bucketIDBitSize ≤ 32) (_ : Spec.tweak s.suite s.privateKey ≠ 0)
      (_ : f.metadata.length ≤ 8160) (_ : 0 ≤ f.numVariants) (_ : f.numVariants ≤ maxSliceCap)
      {parts : List (Option (Bytes × Bytes))} (_ : ReadsAs file parts)
      (_ : ∀ x ∈ credentials parts, x.2.length ≤ 49152) (_ : s.suite.elemLen = 33)
      {rand : Nat → (S : Suite) → ZMod S.q} {stale1 stale2 : Nat → Nat → UInt8}
      {chunk' : Nat → Nat} {files' : Files} {file' : Bytes} (_ : g.config = []) (_ : g.dumpConfig = false)
      (_ : (if g.infile = ascii "-" then some files'.stdin else files'.scanFile g.infile) = some file')
      {parts' : List (Option (Bytes × Bytes))} (_ : ReadsAs file' parts') (_ : ∀ i, rand i s.suite ≠ 0)
      (_ : ∀ x ∈ credentials parts', s.suite.hashToElement (Spec.oprfInput E cfg.slowHasherID x.1 x.2) ≠ 0),
      ∃ (variants : Bytes → List Bytes) (kv : KV), (∀ p, mutate dasRules p f.numVariants = .ok (variants p)) ∧
        serverProgram E argv files key stale chunk =
          .ran (.serving s kv (credentials parts).length (parts.length - (credentials parts).length)) f.listen ∧
        let db := storedAll f.metadata f.numVariants f.usernameVariant variants (credentials parts)
        ((∀ x ∈ credentials parts', ∀ y ∈ db, ¬ TagCollision E s y x.1 x.2) →
          ∀ get post, get (g.target ++ ascii "/config") = deliver s kv stale1 (ascii "/config") [] →
            (∀ k, post k (g.target ++ ascii "/evaluate") = deliver s kv stale1 (ascii "/evaluate")) →
            clientProgram E argv' files' get post rand stale2 chunk' =
              .ran { stdout := (credentials parts').flatMap (fun x => idealLine g.showPassword db x.1 x.2),
                     warned := decide (cfg.version ≠ 1), exit := .ok }) := by
  obtain ⟨f, hf, hserver⟩ := C73_server (E := E) ha hset htail
  obtain ⟨g, hg, hclient⟩ := C73_client (E := E) ha' hset' htail'
  refine ⟨f, g, hf, hg, ?_⟩
  intro cfg s key stale chunk files file h1 h2 h3 h4 h5 h6 h7 h8 h9 h10 parts h11 h12 h13 rand stale1 stale2 chunk' files'
    file' h14 h15 h16 parts' h17 h18 h19
  obtain ⟨variants, kv, h20, h21, h22⟩ := C60_end_to_end (E := E) (chunk := chunk) (chunk' := chunk') (stale1 := stale1)
    (stale2 := stale2)
    (args := { config := if f.config = [] then none else some (files.readFile f.config)
               dumpConfig := f.dumpConfig, metadata := f.metadata, numVariants := f.numVariants
               usernameVariant := f.usernameVariant
               infile := if f.infile = ascii "-" then some files.stdin else files.scanFile f.infile })
    h1 h2 h3 h4 h5 h6 h7 h8 h9 h10 h11 h12 h13
    (cargs := { config := if g.config = [] then none else some (files'.readFile g.config)
                dumpConfig := g.dumpConfig, showPassword := g.showPassword
                infile := if g.infile = ascii "-" then some files'.stdin else files'.scanFile g.infile })
    (by dsimp only; rw [if_pos h14]) h15 h16 h17 h18 h19
  refine ⟨variants, kv, h20, by rw [hserver, h21], ?_⟩
  intro db hno get post hget hpost
  rw [hclient, hget, funext hpost]
  exact congrArg _ (h22 hno)

/-! ## Examples -/

/-- C73_server and C73_server_usage: flags in several spellings, one of them twice, and a stray word. -/
theorem C73_example_settings : Settings serverFlags
    [ascii "-listen", ascii "-metadata", ascii "-metadata=A", ascii "--num-variants=0x10", ascii "-num-variants",
     ascii "2", ascii "--username-variant=F"]
    [(ascii "listen", ascii "-metadata"), (ascii "metadata", ascii "A"), (ascii "num-variants", ascii "0x10"), (ascii "num-variants", ascii "2"),
     (ascii "username-variant", ascii "F")] := by
  have hn : ∀ {v : GoString} {n : Int}, parseInt v = some n → Valid serverFlags (ascii "num-variants") v :=
    fun h => ⟨fun h => absurd h (by decide), fun _ => ⟨_, (parseInt_iff _ _).mp h⟩⟩
  refine .cons (words := [_, _]) (.apart (d := ascii "-") (kind := .string) (by decide) (by decide) (.inl rfl))
    ⟨fun h => absurd h (by decide), fun h => absurd h (by decide)⟩ ?_
  refine .cons (words := [_]) (.joined (d := ascii "-") (kind := .string) (by decide) (.inl rfl))
    ⟨fun h => absurd h (by decide), fun h => absurd h (by decide)⟩ ?_
  refine .cons (words := [_]) (.joined (d := ascii "--") (kind := .int) (by decide) (.inr rfl))
    (hn (n := 16) (by decide +kernel)) ?_
  refine .cons (words := [_, _]) (.apart (d := ascii "-") (kind := .int) (by decide) (by decide) (.inl rfl))
    (hn (n := 2) (by decide +kernel)) ?_
  exact .cons (words := [_]) (.joined (d := ascii "--") (kind := .bool) (by decide) (.inr rfl))
    ⟨fun _ => ⟨false, by unfold IsBoolText; decide⟩, fun h => absurd h (by decide)⟩ .nil

/-- C73: a complete run of both programs from their command lines (compare C60_example): the server with the settings above
and a stray word, the client with nothing but a target. -/
theorem C73_example (stale stale1 stale2 : Nat → Nat → UInt8) (chunk chunk' : Nat → Nat) (files files' : Files)
    (hf : files.stdin = ascii "user:password1\r\nbroken\n") (hf' : files'.stdin = ascii "\nuser:password")
    (rand : Nat → (S : Suite) → ZMod S.q) (hr : ∀ i, rand i Example.server.suite ≠ 0) :
    ∃ kv, serverProgram Example.ext
        [ascii "-listen", ascii "-metadata", ascii "-metadata=A", ascii "--num-variants=0x10", ascii "-num-variants",
         ascii "2", ascii "--username-variant=F", ascii "-", ascii "-listen", ascii ":80"] files ⟨7⟩ stale chunk =
        .ran (.serving Example.server kv 1 1) (ascii "-metadata") ∧
      ∀ get post, get (ascii "http://x/config") = deliver Example.server kv stale1 (ascii "/config") [] →
        (∀ k, post k (ascii "http://x/evaluate") = deliver Example.server kv stale1 (ascii "/evaluate")) →
        clientProgram Example.ext [ascii "-target", ascii "http://x"] files' get post rand stale2 chunk' =
          .ran ⟨ascii "{\"username\":\"user\",\"status\":\"similar password in breach\",\"metadata\":\"A\"}\n", false, .ok⟩ := by
  obtain ⟨kv, h1, h2⟩ := C60_example stale stale1 stale2 chunk chunk' rand hr
  refine ⟨kv, ?_, ?_⟩
  · have hp : flagParse ServerFlags.formal ServerFlags.defaults
        [ascii "-listen", ascii "-metadata", ascii "-metadata=A", ascii "--num-variants=0x10", ascii "-num-variants",
         ascii "2", ascii "--username-variant=F", ascii "-", ascii "-listen", ascii ":80"] =
        .parsed ⟨[], ascii "-metadata", false, ascii "-", ascii "A", 2, false⟩ [ascii "-", ascii "-listen", ascii ":80"] := by
      decide +kernel
    unfold serverProgram
    rw [hp]
    dsimp only
    rw [← h1]
    unfold ServerFlags.args
    dsimp only
    rw [hf, if_neg (by decide), if_neg (by decide)]
  · intro get post hg hpost
    have hp : flagParse ClientFlags.formal ClientFlags.defaults [ascii "-target", ascii "http://x"] =
        .parsed ⟨[], false, false, ascii "-", ascii "http://x"⟩ [] := by
      decide +kernel
    unfold clientProgram
    rw [hp]
    dsimp only
    rw [← h2]
    unfold ClientFlags.args
    dsimp only
    rw [hf', if_neg (by decide), if_neg (by decide)]
    have e1 : ascii "http://x" ++ ascii "/config" = ascii "http://x/config" := by decide
    have e2 : ascii "http://x" ++ ascii "/evaluate" = ascii "http://x/evaluate" := by decide
    rw [e1, e2, hg, funext hpost]

/-- C73_username_variant, C73_server_usage, C73_show_password: such command lines. -/
example : IsDash (ascii "-") ∧ (ascii "false").head? ≠ some 45 ∧ Stops [ascii "false", ascii "-metadata", ascii "A"] ∧
    AsksHelp (ascii "--help") ∧ ¬ Mentions (ascii "show-password") (ascii "-infile=show-password") := by
  refine ⟨.inl rfl, by decide, .inr ⟨_, _, rfl, .inr (.inr (by decide))⟩, ⟨ascii "--", ascii "help", .inr rfl, .inl rfl, .inl rfl⟩, ?_⟩
  rintro ⟨d, rfl | rfl, h | ⟨v, h⟩⟩
  · exact absurd h (by decide)
  · exact absurd (congrArg (fun l => l[1]?) h) (by simp [ascii])
  · exact absurd h (by decide)
  · exact absurd (congrArg (fun l => l[1]?) h) (by simp [ascii])

end Migp.Props
