import Verif.Model.Sys

/-!
# op.c, info.c, error.c, ic_merge.c, MPI_Get_address: calls without library state

Each function is given as the value it stores through its output pointer (`none`: it does not store).
-/

set_option autoImplicit false

namespace MpiSerial

/-- type.c:773-777 `MPI_Get_address`: the pointer converted to `MPI_Aint` (unsigned long). -/
def MPI_Get_address (location : Int) : Int := u64 location

/-- type.c:786-789 `MPI_Address` -/
def MPI_Address (location : Int) : Int := MPI_Get_address location

/-- op.c:14-18 `MPI_Op_create`; `function` and `commute` are not used. -/
def MPI_Op_create (_function _commute : Int) : Option Int := some 0

/-- op.c:26-29 `MPI_Op_free`: the argument is a pointer to the handle, which is not modified. -/
def MPI_Op_free (_op : Int) : Option Int := none

/-- info.c:17-22 `MPI_Info_create` -/
def MPI_Info_create : Option Int := some 0

/-- info.c:35-39 `MPI_Info_set`; has no output. -/
def MPI_Info_set (_info : Int) (_key _value : List UInt8) : Option Int := none

/-- info.c:44-49 `MPI_Info_free` -/
def MPI_Info_free (_info : Int) : Option Int := some 0

/-- error.c:10-13 `MPI_Errhandler_set`; has no output. -/
def MPI_Errhandler_set (_comm _handle : Int) : Option Int := none

/-- ic_merge.c:11-15 `MPI_Intercomm_merge`: assigns the address of its own parameter to the pointer it
was given; nothing is stored through the pointer. -/
def MPI_Intercomm_merge (_intercomm _high : Int) : Option Int := none

end MpiSerial
