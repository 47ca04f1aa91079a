#!/usr/bin/env python3
"""Generates lean/Verif/Model/CountryId.lean from the enum Id in /repo/src/country.rs."""
import re
t = open('/repo/src/country.rs').read().split('\n')
i = [k for k, l in enumerate(t) if l.startswith('pub enum Id')][0]
ids = []
for k in range(i + 1, len(t)):
    m = re.match(r'\s+([A-Z]{2}),$', t[k])
    if m: ids.append(m.group(1))
    elif t[k].startswith('}'): end = k + 1; break
out = f'''import Verif.Basic.Str
/-! # Country ids

Generated by `tools/gen_ids.py` from `/repo/src/country.rs:{i}-{end}` (`enum Id`, derives `EnumString` and `AsRefStr`, so
`from_str` accepts exactly the variant names and `as_ref` returns them). -/

namespace Phone

/-- `country::Id`, `/repo/src/country.rs:{i}-{end}`. -/
inductive Id where
'''
for a in range(0, len(ids), 12):
    out += '  ' + ' '.join('| ' + x for x in ids[a:a+12]) + '\n'
out += '  deriving DecidableEq, Repr\n\nnamespace Id\n\n/-- `AsRefStr` derive of `Id`, `/repo/src/country.rs:%d`. -/\ndef asRef : Id → Str\n' % i
for x in ids: out += f'  | {x} => [\'{x[0]}\', \'{x[1]}\']\n'
out += '\n/-- All variants of `Id`, in declaration order. -/\ndef all : List Id :=\n  ['
out += ',\n   '.join(', '.join('.' + x for x in ids[a:a+14]) for a in range(0, len(ids), 14))
out += ']\n\n/-- `EnumString` derive of `Id` (`FromStr`), `/repo/src/country.rs:%d`: the variant with exactly this name. -/\ndef fromStr (s : Str) : Option Id := all.find? fun i => i.asRef == s\n\nend Id\nend Phone\n' % i
open('/verif/lean/Verif/Model/CountryId.lean', 'w').write(out)
