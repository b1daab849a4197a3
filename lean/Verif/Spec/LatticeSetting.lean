import Verif.Spec.Machine
/-
Switching cavities and radiation (C31).
-/
namespace PySC.Spec
variable {K : Type}

/-- the pass methods with radiation and their counterparts without -/
def radiationPairs : List (String × String) :=
  [("BndMPoleSymplectic4Pass", "BndMPoleSymplectic4RadPass"), ("BndMPoleSymplectic4E2Pass", "BndMPoleSymplectic4E2RadPass"),
   ("StrMPoleSymplectic4Pass", "StrMPoleSymplectic4RadPass")]

/-- the pass method with radiation switched on -/
def radiationOn (m : String) : String := match radiationPairs.find? (fun p => p.1 = m) with | some p => p.2 | none => m

/-- the pass method with radiation switched off -/
def radiationOff (m : String) : String := match radiationPairs.find? (fun p => p.2 = m) with | some p => p.1 | none => m

/-- The pass method of an element after a call with the words `args`; `cavity` tells whether it is a cavity. 'Off' wins
over 'on'. -/
def switched (args : List String) (cavity : Bool) (m : String) : String :=
  if cavity && decide ("cavityoff" ∈ args) then "IdentityPass"
  else if cavity && decide ("cavityon" ∈ args) then "RFCavityPass"
  else if "radiationoff" ∈ args then radiationOff m
  else if "radiationon" ∈ args then radiationOn m
  else m

end PySC.Spec
