import Verif.Model.Wrap
/-!
# The module written for one formula

Model of `gen_repo/impl/gen_py.py:main` (`gen_repo/impl/gen_py.py:53-78`) and of the text of `gen_repo/impl/python_template.jinja`.

Simplifications: the files have Unix line ends and none of the exotic line separators of `str.splitlines`; the Boolean options `trim_blocks` and
`lstrip_blocks` have no effect, as the template contains no `{% … %}`; jinja2 drops the newline at the end of the template.
-/
namespace Verif.Model
open Verif.Text

/-- `chars! "abc"` is the list `['a', 'b', 'c']`; the kernel computes with it faster than with `"abc".toList`. -/
macro "chars! " s:str : term => do
  let cs := (s.getString.toList.map fun c => Lean.Syntax.mkCharLit c).toArray
  `([$cs,*])

/-- `"\n".join(lines)`. -/
def joinLines : List (List Char) → List Char
  | [] => []
  | [l] => l
  | l :: ls => l ++ '\n' :: joinLines ls

/-- jinja2's filter `indent(2)`: each line but the first gets two spaces in front unless it is empty. -/
def indentFilter (s : List Char) : List Char :=
  match splitLines s with
  | [] => []
  | l :: ls => joinLines (l :: ls.map fun l => if l = [] then l else ' ' :: ' ' :: l)

/-- `gen_repo/impl/python_template.jinja:1`, up to `{{ name }}`. -/
def template0 : List Char := chars! "\"\"\"Generated from "

/-- `gen_repo/impl/python_template.jinja:1-16`, between `{{ name }}` and `{{ pol_code | indent(2) }}`. -/
def template1 : List Char := chars! ".mpl.\"\"\"

import jax
import jax.lax as lax
import jax.numpy as jnp
from jax.numpy import array as array
from jax.numpy import int32 as int32
from jax.numpy import nan as nan
from typing import Callable, Optional
from .utils import *


def pol(p, r, s=(None, None, None), l=(None, None), tau=(None, None)):
  params = p.params
  (r0, r1), (s0, s1, s2), (l0, l1), (tau0, tau1) = r, s, l, tau
  "

/-- `gen_repo/impl/python_template.jinja:16-23`, between `{{ pol_code | indent(2) }}` and `{{ unpol_code | indent(2) }}`. -/
def template2 : List Char := chars! "
  return res


def unpol(p, r, s=None, l=None, tau=None):
  params = p.params
  r0, s0, l0, tau0 = r, s, l, tau
  "

/-- `gen_repo/impl/python_template.jinja:23-36`, after `{{ unpol_code | indent(2) }}`. -/
def template3 : List Char := chars! "
  return res


def invoke(
  p: NamedTuple, rho: Callable, r: jnp.ndarray, mo: Optional[Callable] = None,
  deorbitalize: Optional[float] = None,
):
  args = rho_to_arguments(p, rho, r, mo, deorbitalize)
  code = pol if p.nspin == 2 else unpol
  dens = args[0] if p.nspin == 1 else sum(args[0])
  ret = lax.cond((dens < p.dens_threshold), lambda *_: 0.,
                 lambda *_: code(p, *args), None)
  return ret"

/-- The text of the module, for the contents of the two files with Maple's output (`gen_repo/impl/gen_py.py:62-78`). -/
def moduleText (name polFile unpolFile : List Char) : List Char :=
  template0 ++ (name ++ (template1 ++ (indentFilter (strip (joinLines (postProcess polFile))) ++ (template2 ++
    (indentFilter (strip (joinLines (postProcess unpolFile))) ++ template3)))))

end Verif.Model
