import Verif.Props.JsonDecode
/-!
# C64: where the client program takes its configuration from
-/
namespace Migp.Props
open Migp.Json Migp.Spec

variable {E : Ext}

/-- C64: the client program has a configuration exactly if `-config` names a readable file with a JSON document that
decodes without error, or, without `-config`, the server's reply has status 200, could be read and begins with such a
value. Error pages are not taken for configurations. -/
theorem C64_source (config : Option (Option Bytes)) (get : Transport) (stale : Nat → Nat → UInt8) (cfg : Config) :
    clientConfig config get stale = some cfg ↔
      (∃ data, config = some (some data) ∧ Config.unmarshalJSON stale data Config.zero = (cfg, false)) ∨
      (config = none ∧ ∃ body, get = .reply 200 (some body) ∧
        Config.decodeJSON stale body Config.zero = (cfg, false)) := by
  have hif : ∀ x : Config × Bool, (if x.2 then none else some x.1) = some cfg ↔ x = (cfg, false) := by
    rintro ⟨c, b⟩
    cases b <;> simp
  cases config with
  | some f =>
    cases f with
    | none => simp [clientConfig]
    | some data =>
      simp only [clientConfig, hif]
      simp
  | none =>
    cases get with
    | failed => simp [clientConfig]
    | reply status body =>
      by_cases hs : status = 200
      · subst hs
        cases body with
        | none => simp [clientConfig]
        | some body =>
          simp only [clientConfig, ne_eq, not_true_eq_false, if_false, hif]
          simp
      · simp only [clientConfig, ne_eq, hs, not_false_eq_true, if_true]
        simp only [reduceCtorEq, false_iff]
        rintro (⟨_, h, _⟩ | ⟨_, _, h, _⟩)
        · cases h
        · injection h with h
          exact hs h

/-- C64: without a configuration the program prints nothing, ends with a failure status, and neither the network nor the
input has any influence: no credential is sent. -/
theorem C64_no_config (args : ClientArgs) (get : Transport) (post : Nat → Bytes → Transport)
    (rand : Nat → (S : Suite) → ZMod S.q) (stale : Nat → Nat → UInt8) (chunk : Nat → Nat)
    (h : clientConfig args.config get stale = none) :
    clientMain E args get post rand stale chunk = ⟨[], false, .failure⟩ := by
  unfold clientMain
  rw [h]

/-- C64: an error page or a reply that is not JSON stops the program, even if the page contains a configuration. -/
theorem C64_error_page (args : ClientArgs) (status : Nat) (body : Option Bytes) (post : Nat → Bytes → Transport)
    (rand : Nat → (S : Suite) → ZMod S.q) (stale : Nat → Nat → UInt8) (chunk : Nat → Nat) (hc : args.config = none)
    (hs : status ≠ 200) :
    clientMain E args (.reply status body) post rand stale chunk = ⟨[], false, .failure⟩ := by
  refine C64_no_config args _ post rand stale chunk ?_
  rw [Option.eq_none_iff_forall_ne_some]
  intro cfg h
  rcases (C64_source _ _ _ _).mp h with ⟨_, h, _⟩ | ⟨_, _, h, _⟩
  · rw [hc] at h; cases h
  · injection h with h
    exact hs h

/-- C64: `-dump-config` prints the configuration in use, sends nothing and reads no input; anything else prints only
answers. The warning about the version is given exactly when the configuration that is used has another version than
this program, and it has no influence on anything else: the program goes on. -/
theorem C64_dump_and_warning (args : ClientArgs) (get : Transport) (post : Nat → Bytes → Transport)
    (rand : Nat → (S : Suite) → ZMod S.q) (stale : Nat → Nat → UInt8) (chunk : Nat → Nat) (cfg : Config)
    (h : clientConfig args.config get stale = some cfg) :
    (args.dumpConfig = true → clientMain E args get post rand stale chunk = ⟨cfg.marshalJSON, false, .ok⟩) ∧
    (args.dumpConfig = false →
      ((clientMain E args get post rand stale chunk).warned = true ↔ cfg.version ≠ 1) ∧
      (args.infile = none → (clientMain E args get post rand stale chunk).stdout = [] ∧
        (clientMain E args get post rand stale chunk).exit = .failure)) := by
  unfold clientMain
  rw [h]
  dsimp only
  refine ⟨fun hd => by rw [hd]; rfl, fun hd => ?_⟩
  rw [hd]
  cases hf : args.infile with
  | none =>
    refine ⟨?_, fun _ => ⟨rfl, rfl⟩⟩
    exact decide_eq_true_iff
  | some file =>
    refine ⟨?_, fun h => by cases h⟩
    exact decide_eq_true_iff

/-- A configuration is fetched from a server, and the same bytes on an error page are refused. -/
example (stale : Nat → Nat → UInt8) :
    clientConfig none (.reply 200 (some (DefaultConfig.marshalJSON ++ [10]))) stale = some DefaultConfig ∧
    clientConfig none (.reply 500 (some (DefaultConfig.marshalJSON ++ [10]))) stale = none := by
  refine ⟨(C64_source _ _ _ _).mpr (.inr ⟨rfl, _, rfl, (C53_config DefaultConfig _ (by decide) stale).2 [10]⟩), ?_⟩
  rw [Option.eq_none_iff_forall_ne_some]
  intro cfg h
  rcases (C64_source _ _ _ _).mp h with ⟨_, h, _⟩ | ⟨_, _, h, _⟩
  · cases h
  · cases h

end Migp.Props
