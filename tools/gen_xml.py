#!/usr/bin/env python3
"""Generate Verif/Data/X*.lean from /repo/assets/PhoneNumberMetadata.xml: the document as a tree of nodes.

Nothing is left out or normalised: every text node (white space included), comment, attribute and element is there, in
order. Only the contents of comments and of the document type declaration are dropped, because the loader does not look at
them. Verif/Data/S*.lean hold the text itself, cut into lines; `check` below reads them back and compares with the asset."""
import os, re, sys, textwrap
sys.path.insert(0, os.path.dirname(os.path.abspath(__file__)))
from gen_data import XML, OUT, events, lit, Load, territory as terr, name

SPACES = {'\n    ': 's4', '\n      ': 's6', '\n        ': 's8', '\n          ': 's10', '\n\n    ': 'l4'}

def tree(it, stop=None):
    r = []
    for e in it:
        if e[0] == 'end':
            assert e[1] == stop
            return r
        if e[0] == 'start': r.append(('elem', e[1], e[2], tree(it, e[1])))
        else: r.append(e)
    assert stop is None
    return r

def attrs(a): return '[' + ', '.join('(n.%s, %s)' % (k, lit(v)) for k, v in a) + ']'

def node(x, ind):
    if x[0] == 'text': return '.' + SPACES[x[1]] if x[1] in SPACES else '.text (%s)' % lit(x[1])
    if x[0] == 'comment': return '.comment'
    if x[0] == 'doctype': return '.docType'
    if x[0] == 'empty': return '.empty n.%s %s' % (x[1], attrs(x[2]))
    _, nm, a, cs = x
    if not a and len(cs) == 1 and cs[0][0] == 'text' and cs[0][1] not in SPACES: return '.leaf n.%s (%s)' % (nm, lit(cs[0][1]))
    return '.elem n.%s %s%s' % (nm, attrs(a), nodes(cs, ind + 2))

def nodes(cs, ind):
    if not cs: return ' []'
    lines, cur = [], ''
    for i, c in enumerate(cs):
        s = node(c, ind) + (']' if i + 1 == len(cs) else ', ')
        if cur and c[0] != 'text' and c[0] != 'comment': lines.append(cur.rstrip()); cur = ''
        cur += s
    lines.append(cur)
    return '\n' + ' ' * ind + '[' + ('\n' + ' ' * ind + ' ').join(lines)

def main():
    src = open(XML, encoding='utf-8', newline='').read()
    evs = list(events(src))
    doc = tree(iter(evs))
    ms = Load(evs).metadata()
    names = set()
    def collect(cs):
        for c in cs:
            if c[0] in ('elem', 'empty'):
                names.add(c[1]); names.update(k for k, _ in c[2])
            if c[0] == 'elem': collect(c[3])
    collect(doc)
    root = [c for c in doc if c[0] == 'elem']
    assert len(root) == 1
    i = doc.index(root[0])
    prolog, epilog = doc[:i], doc[i + 1:]
    terrs = [c for c in root[0][3] if c[0] == 'elem']
    assert [t[1] for t in terrs] == ['territories']
    j = root[0][3].index(terrs[0])
    # groups of children of <territories>, each ending with a territory, following the modules T*.lean
    files, cur, size, k = [], [], 0, 0
    group = []
    for c in terrs[0][3]:
        group.append(c)
        if c[0] == 'elem':
            assert c[1] == 'territory'
            n = len(terr(ms[k]))
            if cur and size + n > 60000: files.append(cur); cur, size = [], 0
            cur.append((ms[k], group)); size += n; k += 1; group = []
    files.append(cur)
    assert k == len(ms)
    for f in os.listdir(OUT):
        if re.match(r'X\d+\.lean$', f): os.remove(os.path.join(OUT, f))
    with open(os.path.join(OUT, 'XNames.lean'), 'w') as o:
        o.write('import Verif.Spec.Loader\n/-! Names and recurring nodes of `/repo/assets/PhoneNumberMetadata.xml`. '
                'Generated by `tools/gen_xml.py`; do not edit. -/\n\nnamespace Phone.Xml\n\n')
        for s, nm in SPACES.items(): o.write('/-- white space -/\ndef Node.%s : Node := .text (%s)\n' % (nm, lit(s)))
        o.write('/-- an element with nothing but a text in it -/\ndef Node.leaf (name s : Str) : Node := .elem name [] [.text s]\n\n')
        o.write('namespace n\n')
        for nm in sorted(names): o.write('/-- a name -/\ndef %s : Str := %s\n' % (nm, lit(nm)))
        o.write('end n\n\nend Phone.Xml\n')
    for i, cur in enumerate(files):
        with open(os.path.join(OUT, 'X%02d.lean' % i), 'w') as o:
            o.write('import Verif.Data.XNames\n/-! Territories of `/repo/assets/PhoneNumberMetadata.xml` as trees. '
                    'Generated by `tools/gen_xml.py`; do not edit. -/\n\nset_option maxRecDepth 100000\nnamespace Phone.Data.X\n'
                    'open Phone.Xml\n\n')
            for m, g in cur:
                t = g[-1]
                o.write('/-- what stands before this territory -/\nnoncomputable def %s_before : List Node :=%s\n' % (name(m), nodes(g[:-1], 2)))
                o.write('/-- its attributes -/\nnoncomputable def %s_attrs : List (Str × Str) := %s\n' % (name(m), attrs(t[2])))
                o.write('/-- its content -/\nnoncomputable def %s : List Node :=%s\n\n' % (name(m), nodes(t[3], 2)))
            o.write('/-- the nodes of this module -/\nnoncomputable def chunk%02d : List (List Node × List (Str × Str) × List Node) :=\n' % i)
            o.write('\n'.join(textwrap.wrap('[' + ', '.join('({0}_before, {0}_attrs, {0})'.format(name(m)) for m, _ in cur) + ']',
                                            110, initial_indent='  ', subsequent_indent='   ')) + '\n\nend Phone.Data.X\n')
    with open(os.path.join(OUT, 'XAll.lean'), 'w') as o:
        for i in range(len(files)): o.write('import Verif.Data.X%02d\n' % i)
        o.write('/-! `/repo/assets/PhoneNumberMetadata.xml` as a tree. Generated by `tools/gen_xml.py`; do not edit. -/\n\n'
                'namespace Phone.Data.X\nopen Phone.Xml\n\n')
        o.write('/-- what stands before the root element -/\nnoncomputable def prolog : List Node :=%s\n' % nodes(prolog, 2))
        o.write('/-- what stands after the root element -/\nnoncomputable def epilog : List Node :=%s\n' % nodes(epilog, 2))
        o.write('/-- the territories, each with what stands before it and its attributes -/\n'
                'noncomputable def chunks : List (List Node × List (Str × Str) × List Node) :=\n  ' +
                ' ++\n  '.join('chunk%02d' % i for i in range(len(files))) + '\n')
        o.write('/-- the content of `territories` -/\nnoncomputable def territories : List Node :=\n'
                '  chunks.flatMap (fun c => c.1 ++ [.elem n.territory c.2.1 c.2.2]) ++%s\n' % nodes(group, 4))
        assert terrs[0][2] == []
        o.write('/-- the content of the root element -/\nnoncomputable def root : List Node :=\n  %s ++ [.elem n.territories [] territories] ++%s\n'
                % (nodes(root[0][3][:j], 4).strip(), nodes(root[0][3][j+1:], 4)))
        o.write('/-- the document -/\nnoncomputable def document : List Node := prolog ++ [.elem n.phoneNumberMetadata %s root] ++ epilog\n\n'
                'end Phone.Data.X\n' % attrs(root[0][2]))
    # the text itself
    ends = [m.end() for m in re.finditer('</territory>', src)]
    assert len(ends) == len(ms)
    start = src.index('<territories>') + len('<territories>')
    for f in os.listdir(OUT):
        if re.match(r'S\d+\.lean$', f): os.remove(os.path.join(OUT, f))
    def lines(t):
        return '\n  [' + ',\n   '.join(lit(l) for l in t.splitlines(keepends=True)) + ']\n'
    k, pos = 0, start
    for i, cur in enumerate(files):
        with open(os.path.join(OUT, 'S%02d.lean' % i), 'w') as o:
            o.write('import Verif.Basic.Str\n/-! Text of `/repo/assets/PhoneNumberMetadata.xml`, in lines. '
                    'Generated by `tools/gen_xml.py`; do not edit. -/\n\nset_option maxRecDepth 100000\nnamespace Phone.Data.S\n\n')
            for m, _ in cur:
                o.write('/-- the text up to the end of territory id=%s countryCode=%d -/\nnoncomputable def %s : List Str :=%s\n'
                        % (m['id'], m['countryCode'], name(m), lines(src[pos:ends[k]])))
                pos = ends[k]; k += 1
            o.write('/-- the text of this module -/\nnoncomputable def chunk%02d : List (List Str) :=\n' % i)
            o.write('\n'.join(textwrap.wrap('[' + ', '.join(name(m) for m, _ in cur) + ']', 110, initial_indent='  ',
                                            subsequent_indent='   ')) + '\n\nend Phone.Data.S\n')
    with open(os.path.join(OUT, 'SAll.lean'), 'w') as o:
        for i in range(len(files)): o.write('import Verif.Data.S%02d\n' % i)
        o.write('/-! The text of `/repo/assets/PhoneNumberMetadata.xml`. Generated by `tools/gen_xml.py`; do not edit. -/\n\n'
                'set_option maxRecDepth 100000\nnamespace Phone.Data.S\n\n')
        o.write('/-- the text up to the start tag of `territories` -/\nnoncomputable def head : List Str :=%s' % lines(src[:start]))
        o.write('/-- the text after the last territory -/\nnoncomputable def last : List Str :=%s' % lines(src[pos:]))
        o.write('/-- the text of the territories -/\nnoncomputable def body : List (List Str) :=\n  ' +
                ' ++\n  '.join('chunk%02d' % i for i in range(len(files))) + '\n')
        o.write('/-- the whole text -/\nnoncomputable def text : Str := head.flatten ++ (body.flatten.flatten ++ last.flatten)\n\n'
                'end Phone.Data.S\n')
    ship = os.path.join(OUT, '..', 'Shipped')
    for f in os.listdir(ship):
        if re.match(r'P\d+\.lean$', f): os.remove(os.path.join(ship, f))
    for i in range(len(files)):
        with open(os.path.join(ship, 'P%02d.lean' % i), 'w') as o:
            o.write(('import Verif.Shipped.Check\nimport Verif.Data.T{0}\nimport Verif.Data.X{0}\nimport Verif.Data.S{0}\n'
                     '/-! Part {0} of the shipped metadata document. Generated by `tools/gen_xml.py`; do not edit. -/\n\n'
                     'namespace Phone.Shipped\n\n'
                     'theorem check{0} : check Data.X.chunk{0} Data.S.chunk{0} = true := by kernel_rfl\n\n'
                     'theorem says{0} : says Data.X.chunk{0} = Data.chunk{0} := by kernel_rfl\n\n'
                     'end Phone.Shipped\n').format('%02d' % i))
    with open(os.path.join(ship, 'All.lean'), 'w') as o:
        for i in range(len(files)): o.write('import Verif.Shipped.P%02d\n' % i)
        o.write('import Verif.Data.All\nimport Verif.Data.XAll\nimport Verif.Data.SAll\n'
                '/-! All parts of the shipped metadata document. Generated by `tools/gen_xml.py`; do not edit. -/\n\n'
                'namespace Phone.Shipped\n\n')
        o.write('theorem check_all : check Data.X.chunks Data.S.body = true := by\n  unfold Data.X.chunks Data.S.body\n  exact ')
        t = 'check00'
        for i in range(1, len(files)): t = 'check_append (%s) check%02d' % (t, i)
        o.write('\n    '.join(textwrap.wrap(t, 110)) + '\n\n')
        o.write('theorem says_all : says Data.X.chunks = Data.territories := by\n  unfold Data.X.chunks Data.territories\n'
                '  simp only [says_append, %s]\n\nend Phone.Shipped\n' % ', '.join('says%02d' % i for i in range(len(files))))
    print(len(ms), len(files))
    check()

def check():
    """The lines in the generated modules, joined in the order of `text`, are the asset."""
    def read(f):
        defs = {}
        for nm, body in re.findall(r'^noncomputable def (\w+) : List Str :=\n(.*?)\n(?=\n|/--|$)', open(os.path.join(OUT, f)).read(), re.S | re.M):
            ls = re.findall(r'str% "((?:[^"\\]|\\.)*)"', body)
            esc = {'n': '\n', 't': '\t', '\\': '\\', '"': '"'}
            defs[nm] = ''.join(re.sub(r'\\(u([0-9A-F]{4})|.)', lambda m: chr(int(m.group(2), 16)) if m.group(2) else esc[m.group(1)], l) for l in ls)
        return defs
    a = read('SAll.lean')
    t = a['head']
    for f in sorted(x for x in os.listdir(OUT) if re.match(r'S\d+\.lean$', x)): t += ''.join(read(f).values())
    t += a['last']
    assert t == open(XML, encoding='utf-8', newline='').read()
    print('text of the generated modules = asset,', len(t), 'characters')

if __name__ == '__main__': main()
