import Verif.Spec.Cli
import Verif.Spec.CliOutput

/-!
# Studies that differ only in the way they are written, and studies made of two parts

When two system files should give the same answer: components and connections come in another order, `nodes` are listed as `components`,
connections are written from the other end, components have other names.  And when a system file is two others side by side.
-/

namespace Verif

/-- the components of a system file, under `nodes` or `components` -/
def InputSystem.declared (s : InputSystem) : List InputComponent := s.nodes ++ s.components

/-- The same component under the name that `ρ` gives it: same model, same parameters in any order, any scenario group. -/
structure SameComponent (ρ : String → String) (c c' : InputComponent) : Prop where
  id : c'.id = ρ c.id
  model : c'.model = c.model
  parameters : c'.parameters.Perm c.parameters

/-- The same connection when components have the names that `ρ` gives them, from one end or from the other. -/
inductive SameConnection (ρ : String → String) (k : InputConnection) : InputConnection → Prop
  | same : SameConnection ρ k ⟨ρ k.component1, k.port1, ρ k.component2, k.port2⟩
  | flipped : SameConnection ρ k ⟨ρ k.component2, k.port2, ρ k.component1, k.port1⟩

/-- `l'` lists what `l` lists, one for one, in any order -/
def Listed {α : Type} (same : α → α → Prop) (l l' : List α) : Prop := ∃ m, List.Forall₂ same l m ∧ m.Perm l'

/-- `s'` is the same system as `s`, when components have the names that `ρ` gives them: distinct components keep distinct names. -/
structure InputSystem.Renamed (ρ : String → String) (s s' : InputSystem) : Prop where
  distinct : ∀ c ∈ s.declared, ∀ c' ∈ s.declared, ρ c.id = ρ c'.id → c.id = c'.id
  components : Listed (SameComponent ρ) s.declared s'.declared
  connections : Listed (SameConnection ρ) s.connections s'.connections

/-- `s'` is the same system as `s`, written in another order -/
def InputSystem.Rearranged (s s' : InputSystem) : Prop := s.Renamed (fun n => n) s'

/-- `s` is `s1` and `s2` side by side: they have no component in common, and `s` has the components and the connections of both. -/
structure InputSystem.SideBySide (s1 s2 s : InputSystem) : Prop where
  distinct : ∀ c ∈ s1.declared, ∀ c' ∈ s2.declared, c.id ≠ c'.id
  components : (s1.declared ++ s2.declared).Perm s.declared
  connections : (s1.connections ++ s2.connections).Perm s.connections

/-- the problem of one block with the first timesteps and scenarios -/
def CliFlags.problem (f : CliFlags) (net : Network) (db : DataBase) : OptCtx :=
  { network := net, database := db, timesteps := (List.range f.duration).map Int.ofNat, scenarios := f.scenario }

/-- No coefficient of the problem that the command makes of the files is smaller than `1e-16` (such coefficients are dropped). -/
def KeptRun (parser : Parser) (os : Nat → SetOrder) (fuel : Nat) (d : Disk) (f : CliFlags) : Prop :=
  ∀ paths comp tables ls libs s sys net db, Names d f paths comp tables → ReadAs d paths ls →
    resolveLibrary parser os fuel ls = some (.ok libs) → d.system comp = .ok s → resolveSystem s libs = .ok sys → buildNetwork sys = .ok net →
    buildDataBase (d.study s tables f).load s = .ok db → ∀ c ∈ net.allComponents,
      (∀ k ∈ c.model.allConstraints, ∀ t s : Nat, t < f.duration → s < f.scenario →
        (f.problem net db).NoTiny c k.expression t s) ∧
      ∀ e ∈ c.model.objectives, (f.problem net db).NoTiny c e 0 0

/-- A command on distinct files among the shipped libraries, with a system file and tables that make a complete study. -/
structure ShippedCommand (d : Disk) (f : CliFlags) (paths : List String) (comp : String) (tables : Option String) (ls : List InputLibrary)
    (s : InputSystem) : Prop where
  names : Names d f paths comp tables
  read : ReadAs d paths ls
  distinct : (ls.map (·.id)).Nodup
  shipped : ∀ l ∈ ls, l ∈ [Shipped.antaresInput, Shipped.andromedeInput, Shipped.pypsaInput]
  system : d.system comp = .ok s
  sound : (d.study s tables f).Sound
  complete : ∀ libs, (∀ l ∈ ls, (Dict.get? libs l.id).isSome = true) → (d.study s tables f).Complete libs

end Verif
