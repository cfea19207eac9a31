/-!
# Python exceptions as values
-/
namespace Verif.Py

/-- The exceptions that the modelled code can raise. -/
inductive PyErr
  | nameError | typeError | valueError | runtimeError | indexError | attributeError | keyError
  /-- C++ `std::runtime_error` thrown through pybind11 (`gen_repo/libxc/libxc.cc`); a `RuntimeError` in Python -/
  | cxxRuntimeError
  /-- behaviour outside the model (never reached by the shipped code; see the theorems) -/
  | unmodelled
  deriving DecidableEq, Repr, Inhabited

end Verif.Py
