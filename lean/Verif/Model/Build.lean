import Mathlib.Data.List.Basic
/-!
# The build files

Model of `gen_repo/impl/gen_build.py` with `gen_repo/impl/build.jinja`, and of `gen_repo/libxc/gen_build.py` with `gen_repo/libxc/build.jinja`.

A rule is represented by what ties it to other rules: its name, its sources, its outputs, and what its command does with them.
-/
namespace Verif.Model

/-- What the command of a rule does. -/
inductive Action
  /-- `gen_maple [--pol] --include FILE` -/
  | genMaple (pol : Bool) (include_ : List Char)
  /-- run Maple on the source -/
  | maple
  /-- `cp $< $@` -/
  | copy
  /-- `gen_py --pol P --unpol U` -/
  | genPy (pol unpol : List Char)
  /-- `wrap --path $<` -/
  | wrap
  /-- compile the source (`cc_library`) -/
  | compile
  deriving DecidableEq

/-- A rule of a BUILD file. -/
structure Rule where
  name : List Char
  srcs : List (List Char)
  outs : List (List Char)
  action : Action
  deriving DecidableEq

/-- Does the file name match `*.ext` in `glob.glob`? (`*` does not match a leading dot.) -/
def globExt (ext f : List Char) : Bool := ext.isSuffixOf f && f.head? != some '.'

/-- `s.split(".")[0]`. -/
def fileStem (f : List Char) : List Char := f.takeWhile (· != '.')

/-- The folders of `gen_build.py:21-23`. -/
def folders : List (List Char) := ["lda_exc".toList, "gga_exc".toList, "mgga_exc".toList, "lda_vxc".toList, "gga_vxc".toList, "mgga_vxc".toList]

/-- `names_and_maple_files` (`gen_repo/impl/gen_build.py:20-27`): `ls` lists the files of a folder. -/
def namesAndFiles (ls : List Char → List (List Char)) : List (List Char × List Char) :=
  folders.flatMap fun folder => ((ls folder).filter (globExt ".mpl".toList)).map fun f => (fileStem f, folder ++ '/' :: (fileStem f ++ ".mpl".toList))

/-- The rules for one formula (`gen_repo/impl/build.jinja:21-91`). -/
def formulaRules (prebuilt : Bool) (x : List Char × List Char) : List Rule :=
  let n := x.1
  (if prebuilt then
    [ { name := n ++ "_pol".toList, srcs := ["@build_jax_xc//gen_repo/impl/prebuilt/pol:".toList ++ (n ++ ".py".toList)], outs := ["pol/".toList ++ (n ++ ".py".toList)],
        action := .copy },
      { name := n ++ "_unpol".toList, srcs := ["@build_jax_xc//gen_repo/impl/prebuilt/unpol:".toList ++ (n ++ ".py".toList)],
        outs := ["unpol/".toList ++ (n ++ ".py".toList)], action := .copy } ]
  else
    [ { name := n ++ "_maple_pol".toList, srcs := [], outs := ["maple_pol/".toList ++ (n ++ ".mpl".toList)], action := .genMaple true x.2 },
      { name := n ++ "_maple_unpol".toList, srcs := [], outs := ["maple_unpol/".toList ++ (n ++ ".mpl".toList)], action := .genMaple false x.2 },
      { name := n ++ "_pol".toList, srcs := ["maple_pol/".toList ++ (n ++ ".mpl".toList)], outs := ["pol/".toList ++ (n ++ ".py".toList)], action := .maple },
      { name := n ++ "_unpol".toList, srcs := ["maple_unpol/".toList ++ (n ++ ".mpl".toList)], outs := ["unpol/".toList ++ (n ++ ".py".toList)], action := .maple } ]) ++
  [ { name := n ++ "_gen_py".toList, srcs := ["pol/".toList ++ (n ++ ".py".toList), "unpol/".toList ++ (n ++ ".py".toList)], outs := [n ++ ".py".toList],
      action := .genPy ("pol/".toList ++ (n ++ ".py".toList)) ("unpol/".toList ++ (n ++ ".py".toList)) } ]

/-- A BUILD file: its rules, and the sources (or dependencies) of its library. -/
structure Build where
  rules : List Rule
  library : List (List Char)

/-- `gen_repo/impl/gen_build.py:main` with `gen_repo/impl/build.jinja`; `prebuilt` iff `GITHUB_ACTIONS` is set. -/
def implBuild (githubActions : Option (List Char)) (ls : List Char → List (List Char)) : Build where
  rules := (namesAndFiles ls).flatMap (formulaRules githubActions.isSome)
  library := ["__init__.py".toList, "utils.py".toList] ++ (namesAndFiles ls).map fun x => ':' :: (x.1 ++ "_gen_py".toList)

/-- The C files that are wrapped (`gen_repo/libxc/gen_build.py:20-26`). -/
def wrappedFiles (files : List (List Char)) : List (List Char) :=
  (files.filter (globExt ".c".toList)).filter fun b => !("funcs_".toList.isPrefixOf b || "work_".toList.isPrefixOf b)

/-- The rules for one C file (`gen_repo/libxc/build.jinja:53-80`). -/
def wrapRules (b : List Char) : List Rule :=
  [ { name := "gen_".toList ++ (b ++ ['c']), srcs := ["src/".toList ++ b], outs := ["src_cc/".toList ++ (b ++ ['c'])], action := .wrap },
    { name := b ++ "c.obj".toList, srcs := ["src_cc/".toList ++ (b ++ ['c'])], outs := [], action := .compile } ]

/-- `gen_repo/libxc/gen_build.py:main` with `gen_repo/libxc/build.jinja`; `library` lists the dependencies of the extension that come from C files
(`build.jinja:91-93`). -/
def libxcBuild (files : List (List Char)) : Build where
  rules := (wrappedFiles files).flatMap wrapRules
  library := (wrappedFiles files).map fun b => ':' :: (b ++ "c.obj".toList)

end Verif.Model
