#!/usr/bin/env python3
"""Generate lean/Verif/Gen/ClassNames.lean from lean/Verif/Gen/Classes.lean: the `__name__` of each class.

`ComponentsTags` is `components.Tags` (see gen_classes.py); all others are called in Lean as in Python."""
import re, os
here = os.path.dirname(os.path.abspath(__file__))
s = open(os.path.join(here, "../lean/Verif/Gen/Classes.lean")).read()
names = re.findall(r"^  \| (\w+)$", s[s.index("inductive Cls"):s.index("deriving DecidableEq")], re.M)
with open(os.path.join(here, "../lean/Verif/Gen/ClassNames.lean"), "w") as o:
    o.write("import Verif.Gen.Classes\n/-!\nGenerated by tools/gen_classnames.py. Do not edit.\n-/\nnamespace Verif.Gen\nopen Verif\n\n")
    o.write("/-- `__name__` of each class of asyncapi3/models. -/\ndef className : Cls → Str\n")
    for n in names:
        o.write(f'  | .{n} => p!"{"Tags" if n == "ComponentsTags" else n}"\n')
    o.write("\nend Verif.Gen\n")
