#!/usr/bin/env python3
"""Generate Verif/Data/T*.lean from /repo/assets/PhoneNumberMetadata.xml.

The XML is cut into the events that quick_xml delivers (no trimming, no unescaping: the loader uses the raw bytes) and the
loader of /repo/src/metadata/loader.rs is replayed on them. The result is one `Loader.Metadata` per territory."""
import re, sys, os, textwrap
XML = '/repo/assets/PhoneNumberMetadata.xml'
OUT = os.path.join(os.path.dirname(os.path.abspath(__file__)), '..', 'lean', 'Verif', 'Data')

def events(src):
    pos, n = 0, len(src)
    while pos < n:
        if src[pos] != '<':
            e = src.find('<', pos)
            e = n if e < 0 else e
            yield ('text', src[pos:e]); pos = e; continue
        if src.startswith('<!--', pos):
            e = src.index('-->', pos) + 3
            yield ('comment',); pos = e; continue
        if src.startswith('<!DOCTYPE', pos):
            depth, e = 0, pos
            while True:
                if src.startswith('<!--', e):
                    e = src.index('-->', e) + 3; continue
                if src[e] == '<': depth += 1
                if src[e] == '>':
                    depth -= 1
                    if depth == 0: break
                e += 1
            yield ('doctype',); pos = e + 1; continue
        if src.startswith('<?', pos): raise Exception('declaration')
        # tag; attribute values may contain '>'
        m = re.compile(r'<(/?)([A-Za-z]+)((?:\s+[A-Za-z]+\s*=\s*"[^"]*")*)\s*(/?)>', re.S).match(src, pos)
        assert m, src[pos:pos+80]
        attrs = re.findall(r'([A-Za-z]+)\s*=\s*"([^"]*)"', m.group(3), re.S)
        assert len(set(k for k, _ in attrs)) == len(attrs)
        if m.group(1): yield ('end', m.group(2))
        elif m.group(4): yield ('empty', m.group(2), attrs)
        else: yield ('start', m.group(2), attrs)
        pos = m.end()

DESC = {'generalDesc': 'general', 'fixedLine': 'fixedLine', 'mobile': 'mobile', 'tollFree': 'tollFree',
        'premiumRate': 'premiumRate', 'sharedCost': 'sharedCost', 'personalNumber': 'personalNumber', 'voip': 'voip',
        'pager': 'pager', 'uan': 'uan', 'emergency': 'emergency', 'voicemail': 'voicemail',
        'noInternationalDialling': 'noInternational'}
FIELDS = ['general', 'fixedLine', 'mobile', 'tollFree', 'premiumRate', 'sharedCost', 'personalNumber', 'voip', 'pager',
          'uan', 'emergency', 'voicemail', 'noInternational', 'id', 'countryCode', 'internationalPrefix',
          'preferredInternationalPrefix', 'nationalPrefix', 'preferredExtensionPrefix', 'nationalPrefixForParsing',
          'nationalPrefixTransformRule', 'formats', 'internationalFormats', 'mainCountryForCode', 'leadingDigits',
          'mobileNumberPortable', 'defaults']

def lengths(v):
    r = []
    for part in v.split(','):
        part = part.strip()
        if part[0] == '[':
            a, b = part.split('-')[:2]
            r += list(range(int(a[1:]), int(b[:-1]) + 1))
        else: r.append(int(part))
    return r

class Load:
    def __init__(self, evs): self.it = iter(evs)
    def nxt(self): return next(self.it)
    def text(self, name):
        r = ''
        while True:
            e = self.nxt()
            if e[0] == 'text': r += e[1]
            elif e == ('end', name): return r
            else: raise Exception(e)
    def ignore(self, name):
        while True:
            e = self.nxt()
            if e[0] == 'start': self.ignore(e[1])
            elif e == ('end', name): return
            elif e[0] not in ('text', 'comment', 'empty'): raise Exception(e)
    def descriptor(self, name):
        d = {}
        while True:
            e = self.nxt()
            if e[0] in ('text', 'comment'): pass
            elif e[0] == 'start' and e[1] == 'nationalNumberPattern': d['nationalNumber'] = self.text(e[1])
            elif e[0] == 'start' and e[1] == 'exampleNumber': d['example?'] = self.text(e[1])
            elif e[0] == 'empty' and e[1] == 'possibleLengths':
                for k, v in e[2]:
                    d[{'national': 'possibleLength', 'localOnly': 'possibleLocalLength'}[k]] = lengths(v)
            elif e == ('end', name): return d
            else: raise Exception(e)
    def format(self, name, attrs, default):
        f = dict(default); intl = None
        f.setdefault('leadingDigits', [])
        f['leadingDigits'] = []
        for k, v in attrs:
            if k == 'pattern': f['pattern'] = v
            elif k == 'nationalPrefixFormattingRule': f[k] = v
            elif k == 'nationalPrefixOptionalWhenFormatting': f[k] = {'true': True, 'false': False}[v]
            elif k == 'carrierCodeFormattingRule': f['domesticCarrier'] = v
            else: raise Exception(k)
        while True:
            e = self.nxt()
            if e[0] in ('text', 'comment'): pass
            elif e[0] == 'start' and e[1] == 'leadingDigits': f['leadingDigits'].append(self.text(e[1]))
            elif e[0] == 'start' and e[1] == 'format': f['format'] = intl = self.text(e[1])
            elif e[0] == 'start' and e[1] == 'intlFormat':
                intl = self.text(e[1])
                if intl == 'NA': intl = None
            elif e == ('end', name):
                g = None
                if intl is not None:
                    g = dict(f); g['format'] = intl
                return f, g
            else: raise Exception(e)
    def formats(self, name, default):
        a, b = [], []
        while True:
            e = self.nxt()
            if e[0] in ('text', 'comment'): pass
            elif e[0] == 'start' and e[1] == 'numberFormat':
                f, g = self.format(e[1], e[2], default)
                a.append(f)
                if g is not None: b.append(g)
            elif e == ('end', name): return a, b
            else: raise Exception(e)
    def territory(self, attrs):
        m, d = {}, {}
        for k, v in attrs:
            if k in ('id', 'internationalPrefix', 'preferredInternationalPrefix', 'nationalPrefix',
                     'nationalPrefixForParsing', 'nationalPrefixTransformRule', 'leadingDigits'): m[k] = v
            elif k == 'preferredExtnPrefix': m['preferredExtensionPrefix'] = v
            elif k == 'countryCode': m[k] = int(v)
            elif k == 'mainCountryForCode': m[k] = {'true': True, 'false': False}[v]
            elif k == 'mobileNumberPortableRegion': m['mobileNumberPortable'] = {'true': True, 'false': False}[v]
            elif k == 'nationalPrefixFormattingRule': d[k] = v
            elif k == 'nationalPrefixOptionalWhenFormatting': d[k] = {'true': True, 'false': False}[v]
            elif k == 'carrierCodeFormattingRule': d['domesticCarrier'] = v
            else: raise Exception(k)
        if d: m['defaults'] = {'format': d}
        while True:
            e = self.nxt()
            if e[0] in ('text', 'comment'): pass
            elif e[0] == 'start' and e[1] in ('references', 'areaCodeOptional'): self.ignore(e[1])
            elif e[0] == 'start' and e[1] in DESC: m[DESC[e[1]]] = self.descriptor(e[1])
            elif e[0] == 'start' and e[1] == 'availableFormats':
                m['formats'], m['internationalFormats'] = self.formats(e[1], d)
            elif e == ('end', 'territory'): return m
            else: raise Exception(e)
    def territories(self):
        r = []
        while True:
            e = self.nxt()
            if e[0] in ('text', 'comment'): pass
            elif e[0] == 'start' and e[1] == 'territory': r.append(self.territory(e[2]))
            elif e[0] == 'start': self.ignore(e[1])
            elif e == ('end', 'territories'): return r
            else: raise Exception(e)
    def metadata(self):
        r = []
        while True:
            e = self.nxt()
            if e[0] in ('text', 'comment', 'doctype'): pass
            elif e[0] == 'start' and e[1] == 'phoneNumberMetadata': pass
            elif e[0] == 'start' and e[1] == 'territories': r += self.territories()
            elif e[0] == 'start': self.ignore(e[1])
            elif e == ('end', 'phoneNumberMetadata'): return r
            else: raise Exception(e)

def lit(s):
    o = ''
    for c in s:
        if c == '\\': o += '\\\\'
        elif c == '"': o += '\\"'
        elif c == '\n': o += '\\n'
        elif c == '\t': o += '\\t'
        elif 32 <= ord(c) < 127: o += c
        else: o += '\\u%04X' % ord(c)
    return 'str% "' + o + '"'

def desc(d):
    p = []
    if 'nationalNumber' in d: p.append('nationalNumber := some (%s)' % lit(d['nationalNumber']))
    for k in ('possibleLength', 'possibleLocalLength'):
        if k in d: p.append('%s := %s' % (k, d[k]))
    if 'example?' in d: p.append('example? := some (%s)' % lit(d['example?']))
    return '{ ' + ', '.join(p) + ' }'

def fmt(f):
    p = []
    if 'pattern' in f: p.append('pattern := some (%s)' % lit(f['pattern']))
    if 'format' in f: p.append('format := some (%s)' % lit(f['format']))
    if f.get('leadingDigits'): p.append('leadingDigits := [%s]' % ', '.join(lit(x) for x in f['leadingDigits']))
    if 'nationalPrefixFormattingRule' in f:
        p.append('nationalPrefixFormattingRule := some (%s)' % lit(f['nationalPrefixFormattingRule']))
    if f.get('nationalPrefixOptionalWhenFormatting'): p.append('nationalPrefixOptionalWhenFormatting := true')
    if 'domesticCarrier' in f: p.append('domesticCarrier := some (%s)' % lit(f['domesticCarrier']))
    return '{ ' + ', '.join(p) + ' }'

def name(m): return m['id'] if m['id'] != '001' else 'W%d' % m['countryCode']

def territory(m):
    p = []
    for k in FIELDS:
        if k not in m: continue
        v = m[k]
        if k in DESC.values(): p.append('%s := some %s' % (k, desc(v)))
        elif k == 'countryCode': p.append('countryCode := some %d' % v)
        elif k in ('formats', 'internationalFormats'):
            if v: p.append('%s := [\n      %s]' % (k, ',\n      '.join(fmt(f) for f in v)))
        elif k in ('mainCountryForCode', 'mobileNumberPortable'):
            if v: p.append('%s := true' % k)
        elif k == 'defaults': p.append('defaults := { format := %s }' % fmt(v['format']))
        else: p.append('%s := some (%s)' % (k, lit(v)))
    return 'noncomputable def %s : Loader.Metadata :=\n  { %s }\n' % (name(m), ',\n    '.join(p))

def main():
    src = open(XML, encoding='utf-8', newline='').read()
    ms = Load(list(events(src))).metadata()
    os.makedirs(OUT, exist_ok=True)
    files, cur, size = [], [], 0
    for m in ms:
        t = territory(m)
        if cur and size + len(t) > 60000:
            files.append(cur); cur, size = [], 0
        cur.append((m, t)); size += len(t)
    files.append(cur)
    for f in os.listdir(OUT):
        if re.match(r'T\d+\.lean$', f): os.remove(os.path.join(OUT, f))
    for i, cur in enumerate(files):
        with open(os.path.join(OUT, 'T%02d.lean' % i), 'w') as o:
            o.write('import Verif.Model.Database\n'
                    '/-! Territories of `/repo/assets/PhoneNumberMetadata.xml` as `/repo/src/metadata/loader.rs` reads them.\n'
                    'Generated by `tools/gen_data.py`; do not edit. -/\n\nset_option maxRecDepth 100000\nnamespace Phone.Data\n\n')
            for m, t in cur:
                o.write('/-- territory id=%s countryCode=%d -/\n%s\n' % (m['id'], m['countryCode'], t))
            o.write('/-- the territories of this module, in document order -/\nnoncomputable def chunk%02d : List Loader.Metadata :=\n' % i)
            o.write('\n'.join(textwrap.wrap('[' + ', '.join(name(m) for m, _ in cur) + ']', 110, initial_indent='  ',
                                            subsequent_indent='   ')) + '\n\nend Phone.Data\n')
    with open(os.path.join(OUT, 'All.lean'), 'w') as o:
        for i in range(len(files)): o.write('import Verif.Data.T%02d\n' % i)
        o.write('/-! All territories of `/repo/assets/PhoneNumberMetadata.xml`. Generated by `tools/gen_data.py`. -/\n\n'
                'namespace Phone.Data\n\n/-- all territories in document order -/\nnoncomputable def territories : List Loader.Metadata :=\n')
        o.write('  ' + ' ++\n  '.join('chunk%02d' % i for i in range(len(files))) + '\n\nend Phone.Data\n')
    print(len(ms), 'territories', len(files), 'files')

if __name__ == '__main__': main()
