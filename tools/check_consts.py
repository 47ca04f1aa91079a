"""Compare the pattern texts in lean/Verif/Model/ConstsText.lean with /repo/src/consts.rs (format! expanded)."""
import re

rs = open('/repo/src/consts.rs', encoding='utf-8').read()
lean = open('lean/Verif/Model/ConstsText.lean', encoding='utf-8').read()

# Lean definitions, as concatenations of string literals and names
defs = {}
for m in re.finditer(r'^def (\w+)(?: \((\w+) : Str\))? : Str :=\n?(.*?)(?=\n\n|\Z)', lean, re.S | re.M):
    defs[m[1]] = (m[2], m[3])

def lean_text(name, arg=None):
    param, body = defs[name]
    out = ''
    for lit, call, carg, ident in re.findall(r'str% "((?:[^"\\]|\\.)*)"|(\w+) \(str% "((?:[^"\\]|\\.)*)"\)|(\w+)', body):
        if call:
            out += lean_text(call, carg.replace('\\\\', '\\'))
        elif ident:
            out += arg if ident == param else lean_text(ident)
        else:
            out += lit.replace('\\\\', '\\')
    return out

# Rust constants
consts = dict(re.findall(r'pub const (\w+): &str =\s*r?"(.*?)";', rs))
statics = {}
for m in re.finditer(r'pub static (\w+): Lazy<(?:Regex|String)> =\s*(.*?);\n(?=\n|$)', rs, re.S):
    statics[m[1]] = m[2]

def rust_text(name):
    if name in consts:
        return consts[name]
    body = statics[name]
    lit = re.search(r'r?"((?:[^"\\]|\\.)*?)"', body)
    text = lit[1]
    if 'format!' not in body:
        return text
    rest = body[lit.end():]
    named = re.findall(r'(\w+) = (?:\*?([A-Z]\w+)|r"(.*?)")', rest)
    vals = {k: (rust_text(v) if v else lit2) for k, v, lit2 in named}
    pos = [] if named else re.findall(r'\b([A-Z][A-Z0-9_]+)\b', rest)
    out, i, p = '', 0, 0
    while i < len(text):
        if text[i:i + 2] in ('{{', '}}'):
            out += text[i]; i += 2
        elif text[i] == '{':
            j = text.index('}', i)
            key = text[i + 1:j]
            if key:
                out += vals[key]
            else:
                out += rust_text(pos[p]); p += 1
            i = j + 1
        else:
            out += text[i]; i += 1
    return out

def camel(n):
    a = n.lower().split('_')
    return a[0] + ''.join(w.capitalize() for w in a[1:])

bad = 0
seen = 0
for name in list(consts) + list(statics):
    ln = camel(name)
    if ln not in defs:
        continue
    seen += 1
    if rust_text(name) != lean_text(ln):
        bad += 1
        print('DIFFERENT', name, rust_text(name), lean_text(ln), sep='\n  ')
print(seen, 'texts compared,', bad, 'different')
