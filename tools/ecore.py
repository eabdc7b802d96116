#!/usr/bin/env python3
"""Generate lean/Verif/Gen/Model_*.lean from the information models /repo/Model/**/*.ecore.

An ecore file is XMI: nested packages with classes (EClass: super type, attributes, references),
enumerations (EEnum with literals) and data types (EDataType with the Java class of their values).
Class paths are written the way the Python packages name their modules: the class
Wires/Breaker of Model/CIM14/CPSM/Equipment.ecore (whose packages start with CPSM/Equipment) is
CIM14.CPSM.Equipment.Wires.Breaker."""
import os
import sys
import xml.etree.ElementTree as ET

sys.path.insert(0, os.path.dirname(os.path.abspath(__file__)))
from gen import PROFILES, OUT, lst, ident, fail  # noqa: E402

XSI = '{http://www.w3.org/2001/XMLSchema-instance}type'
XMI = 'ecore:EDataType http://www.eclipse.org/emf/2002/Ecore#//'


def code(s):
    # one literal of an enumeration is the degree sign, a character above 127
    return '0x' + s.encode('latin-1').hex() if s else '0'


def source(p):
    return 'Model/%s/%s.ecore' % (p, p) if '.' not in p else 'Model/%s.ecore' % p.replace('.', '/')


def load(p):
    root = ET.parse(os.path.join('/repo', source(p))).getroot()
    top = p.split('.')[0]
    classes, enums, types = {}, {}, {}

    def walk(node, pre):
        for k in node:
            if k.tag == 'eSubpackages':
                walk(k, pre + [k.get('name')])
            elif k.tag == 'eClassifiers':
                path = '.'.join(pre + [k.get('name')])
                kind = k.get(XSI)
                if path in classes or path in enums or path in types:
                    fail('classifier twice', path)
                if kind == 'ecore:EClass':
                    classes[path] = k
                elif kind == 'ecore:EEnum':
                    enums[path] = [x.get('name') for x in k if x.tag == 'eLiterals']
                elif kind == 'ecore:EDataType':
                    types[path] = k.get('instanceClassName')
                else:
                    fail('classifier', kind)
            elif k.tag != 'eAnnotations':
                fail('tag', k.tag)
    walk(root, [top])

    def local(ref):
        if not ref.startswith('#//') and ' #//' not in ref:
            fail('reference', ref)
        return '.'.join([top] + ref.split('#//')[1].split('/'))
    out = {}
    for path, k in classes.items():
        sup = k.get('eSuperTypes')
        if sup and ' ' in sup:
            fail('several super types', path)
        c = dict(name=k.get('name'), sup=local(sup) if sup else None, attrs=[], refs=[])
        out[path] = c
        if c['sup'] and c['sup'] not in classes:
            fail('super type', path)
        for f in k:
            if f.tag == 'eAnnotations':
                continue
            if f.tag != 'eStructuralFeatures':
                fail('feature', f.tag)
            t = f.get('eType')
            if f.get(XSI) == 'ecore:EAttribute':
                if f.get('upperBound', '1') != '1':
                    fail('attribute bound', path, f.get('name'))
                if t.startswith(XMI):
                    c['attrs'].append((f.get('name'), 'prim', t[len(XMI):]))
                elif local(t) in enums:
                    c['attrs'].append((f.get('name'), 'enum', local(t)))
                else:
                    c['attrs'].append((f.get('name'), 'prim', types[local(t)]))
            else:
                if f.get('upperBound', '1') not in ('1', '-1') or local(t) not in classes:
                    fail('reference', path, f.get('name'))
                o = f.get('eOpposite')
                if o:
                    oc, on = local(o).rsplit('.', 1)
                    if oc != local(t):
                        fail('opposite', path, f.get('name'))
                c['refs'].append((f.get('name'), local(t), f.get('upperBound') == '-1', on if o else ''))
    return out, enums


def main():
    for p in PROFILES:
        classes, enums = load(p)
        ids = {}
        for n in sorted(classes):
            i = n.split('.')[-1]
            ids[n] = i if sum(m.split('.')[-1] == i for m in classes) == 1 else '_'.join(n.split('.')[-2:])
        eids = {}
        for n in sorted(enums):
            i = n.split('.')[-1]
            eids[n] = i if sum(m.split('.')[-1] == i for m in enums) == 1 else '_'.join(n.split('.')[-2:])
        out = ['import Verif.Spec.Schema',
               '/-! Generated by tools/ecore.py from /repo/%s: do not edit. -/' % source(p),
               'namespace Verif.Gen.Model_%s' % ident(p), 'open Spec', 'set_option maxRecDepth 10000', '']
        for n in sorted(enums):
            out.append('/-- Enumeration %s -/' % n)
            out.append('def e_%s : SType := .enum %s %s' % (
                eids[n], code(n.split('.')[-1]), lst(code(x) for x in enums[n])))
        prims = sorted({a[2] for c in classes.values() for a in c['attrs'] if a[1] == 'prim'})
        for t in prims:
            out.append('/-- Data type with values of %s -/' % t)
            out.append('def t_%s : SType := .prim %s' % (ident(t), code(t)))
        out.append('')
        for n in sorted(classes):
            c = classes[n]
            out.append('/-- Class %s -/' % n)
            out.append('def s_%s : SClass := ⟨%s, %s, %s,' % (
                ids[n], code(c['name']), code(n), code(c['sup'] or '')))
            out.append('  %s,' % lst('(%s, %s)' % (code(a), 'e_' + eids[t] if k == 'enum' else 't_' + ident(t))
                                     for a, k, t in c['attrs']))
            out.append('  %s⟩' % lst('⟨%s, %s, %s, %s⟩' % (code(r), code(t), str(m).lower(), code(o))
                                     for r, t, m, o in c['refs']))
        out.append('')
        out.append('def schema : Schema := [')
        out.append('  ' + ',\n  '.join('s_' + ids[n] for n in sorted(classes)) + ']')
        out.append('')
        out.append('end Verif.Gen.Model_%s' % ident(p))
        with open(os.path.join(OUT, 'Model_%s.lean' % ident(p)), 'w') as f:
            f.write('\n'.join(out) + '\n')
        print(p, len(classes), prims, sum(len(c['attrs']) for c in classes.values()),
              sum(len(c['refs']) for c in classes.values()))


if __name__ == '__main__':
    main()
