import Verif.Spec.Twin

/-!
# C88: runs that differ in the numbers of the tags only
-/

set_option autoImplicit false

namespace MpiSerial

/-- A renumbering of tags: different tags stay different, MPI_ANY_TAG (which is no tag) stays. -/
structure TagRen (ρ : Int → Int) : Prop where
  inj : ∀ a b, ρ a = ρ b → a = b
  any : ρ MPI_ANY_TAG = MPI_ANY_TAG

variable (ρ : Int → Int)

def Status.retag (st : Status) : Status := { st with MPI_TAG := ρ st.MPI_TAG }

def StPtr.retag : StPtr → StPtr
  | .obj st => .obj (st.retag ρ)
  | p => p

/-- The statuses argument of the array calls. -/
def StArr.retag (a : StArr) : StArr := a.map fun l => l.map (Status.retag ρ)

/-- The same call with other numbers for the tags, also in the statuses that are passed. -/
def Call.retag : Call → Call
  | .isend b n t d g c => .isend b n t d (ρ g) c
  | .irsend b n t d g c => .irsend b n t d (ρ g) c
  | .send b n t d g c => .send b n t d (ρ g) c
  | .irecv b n t d g c => .irecv b n t d (ρ g) c
  | .recv b n t d g c st => .recv b n t d (ρ g) c (st.retag ρ)
  | .sendrecv b n t d g b' n' t' d' g' c st => .sendrecv b n t d (ρ g) b' n' t' d' (ρ g') c (st.retag ρ)
  | .iprobe d g c st => .iprobe d (ρ g) c (st.retag ρ)
  | .probe d g c st => .probe d (ρ g) c (st.retag ρ)
  | .test r st => .test r (st.retag ρ)
  | .wait r st => .wait r (st.retag ρ)
  | .testany n rs i st => .testany n rs i (st.retag ρ)
  | .waitany n rs i st => .waitany n rs i (st.retag ρ)
  | .testall n rs sts => .testall n rs (sts.retag ρ)
  | .waitall n rs sts => .waitall n rs (sts.retag ρ)
  | .testsome n rs ix sts => .testsome n rs ix (sts.retag ρ)
  | .waitsome n rs ix sts => .waitsome n rs ix (sts.retag ρ)
  | .getElements st t => .getElements (st.retag ρ) t
  | c => c

/-- The tag among the numbers a receive or a probe hands back: in its status, after the source (and MPI_Iprobe hands back a flag first). -/
def Call.retagVals (v : List Int) : Call → List Int
  | .recv .. | .sendrecv .. | .probe .. => v.modify 1 ρ
  | .iprobe .. => v.modify 2 ρ
  | _ => v

/-- The same results with other numbers for the tags. -/
def Out.retag (c : Call) (o : Out) : Out := ⟨c.retagVals ρ o.vals, o.done.map (StPtr.retag ρ)⟩

/-! ## The library's own record of tags

A request holds its tag (mpiP.h:98). -/

def ReqRec.retag (r : ReqRec) : ReqRec := { r with tag := ρ r.tag }

def Slot.retag : Slot → Slot
  | .req r => .req (r.retag ρ)
  | d => d

/-- The state of the library with the tag of every request renumbered. -/
def Sys.retag (s : Sys) : Sys :=
  { s with handles := { s.handles with items := fun l => { s.handles.items l with data := (s.handles.items l).data.retag ρ } } }

/-- What unused request storage holds is renumbered as well (this does not matter: C56). -/
def Env.retag (env : Env) : Env := { env with junk := fun n => (env.junk n).retag ρ }

/-! ## Programs -/

/-- What the program sees: the same, with other numbers for the tags. -/
def Obs.retag (o : Obs) : Obs := ⟨o.call.retag ρ, o.call.retagVals ρ o.vals, o.stats.map (StPtr.retag ρ), o.mem⟩

/-- `q` is the program `p` with other numbers for its tags: after the same observations it makes the same call. -/
def Prog.RetaggedTo (p q : Prog) : Prop := ∀ l, q (l.map (Obs.retag ρ)) = (p l).map (Call.retag ρ)

end MpiSerial
