"""Transcribes /repo/src/dynamiccolor/material_dynamic_colors.rs into Verif/Model/Material.lean."""
import re
src = open('/repo/src/dynamiccolor/material_dynamic_colors.rs').read().split('\n')
roles = []
for i, l in enumerate(src):
    m = re.match(r'\s+pub fn (\w+)\(\) -> DynamicColor', l)
    if m:
        j = i + 1
        while src[j] != '    }':
            j += 1
        roles.append((m.group(1), i + 1, j + 1, '\n'.join(src[i + 1:j])))


def camel(s):
    p = s.split('_')
    return p[0] + ''.join(x.capitalize() for x in p[1:])


pal = {k: camel(k) for k in ['primary_palette', 'secondary_palette', 'tertiary_palette',
                             'neutral_palette', 'neutral_variant_palette', 'error_palette']}
hand = {
'primary': '''if isMonochrome s then some (if s.isDark then 100.0 else 0.0)
      else some (if s.isDark then 80.0 else 40.0)''',
'on_primary': '''if isMonochrome s then some (if s.isDark then 10.0 else 90.0)
      else some (if s.isDark then 20.0 else 100.0)''',
'primary_container': '''if isFidelity s then some s.sourceColorHct.getTone
      else if isMonochrome s then some (if s.isDark then 85.0 else 25.0)
      else some (if s.isDark then 30.0 else 90.0)''',
'on_primary_container': '''if isFidelity s then
        (toneOf .primaryContainer).map fun t => DynamicColor.foregroundTone t 4.5
      else if isMonochrome s then some (if s.isDark then 0.0 else 100.0)
      else some (if s.isDark then 90.0 else 10.0)''',
'on_secondary': '''if isMonochrome s then some (if s.isDark then 10.0 else 100.0)
      else some (if s.isDark then 20.0 else 100.0)''',
'secondary_container': '''let initialTone : F := if s.isDark then 30.0 else 90.0
      if isMonochrome s then some (if s.isDark then 30.0 else 85.0)
      else if !isFidelity s then some initialTone
      else findDesiredChromaByTone loopFuel s.secondaryPalette.hue s.secondaryPalette.chroma
        initialTone (if s.isDark then false else true)''',
'on_secondary_container': '''if !isFidelity s then some (if s.isDark then 90.0 else 10.0)
      else (toneOf .secondaryContainer).map fun t => DynamicColor.foregroundTone t 4.5''',
'tertiary': '''if isMonochrome s then some (if s.isDark then 90.0 else 25.0)
      else some (if s.isDark then 80.0 else 40.0)''',
'on_tertiary': '''if isMonochrome s then some (if s.isDark then 10.0 else 90.0)
      else some (if s.isDark then 20.0 else 100.0)''',
'tertiary_container': '''if isMonochrome s then some (if s.isDark then 60.0 else 49.0)
      else if !isFidelity s then some (if s.isDark then 30.0 else 90.0)
      else
        let proposedHct := s.tertiaryPalette.getHct s.sourceColorHct.getTone
        some (Dislike.fixIfDisliked proposedHct).getTone''',
'on_tertiary_container': '''if isMonochrome s then some (if s.isDark then 0.0 else 100.0)
      else if !isFidelity s then some (if s.isDark then 90.0 else 10.0)
      else (toneOf .tertiaryContainer).map fun t => DynamicColor.foregroundTone t 4.5''',
}
NUM = r'([\d.]+), ([\d.]+), ([\d.]+), ([\d.]+)'
defs = []
for (n, a, b, body) in roles:
    m = re.search(r'DynamicColor::from_palette\(\s*Some\("(\w+)"\),\s*Box::new\(\|s\| &s\.(\w+)\),\s*(.*)\)\s*$', body, re.S)
    name, palette, rest = m.groups()
    args, depth, cur = [], 0, ''
    for ch in rest:
        if ch in '([{': depth += 1
        if ch in ')]}': depth -= 1
        if ch == ',' and depth == 0:
            args.append(cur.strip()); cur = ''
        else:
            cur += ch
    if cur.strip():
        args.append(cur.strip())
    assert len(args) == 6, (n, args)
    tone, isbg, bg, bg2, curve, pair = args
    if n in hand:
        t = hand[n]
    else:
        e = re.match(r'Box::new\(\|(\w+)\|\s*(.*)\)$', tone, re.S).group(2)
        e = re.sub(r'\s+', ' ', e).strip()
        if e.startswith('{'):
            e = e[1:-1].strip()
        e = re.sub(r'ContrastCurve::new\(' + NUM + r'\)\.get\(s\.contrast_level\)', r'(curve \1 \2 \3 \4).get s.contrastLevel', e)
        mm = re.match(r'if (.*?) \{ (.*?) \} else \{ (.*?) \}$', e)
        if mm:
            c = {'s.is_dark': 's.isDark', '_is_monochrome(s)': 'isMonochrome s'}[mm.group(1)]
            t = 'some (if %s then %s else %s)' % (c, mm.group(2), mm.group(3))
        elif re.match(r'^[\d.]+$', e):
            t = 'some ' + e
        else:
            mm = re.match(r's\.(\w+)\.key_color\.get_tone\(\)', e)
            t = 'some s.%s.keyColor.getTone' % pal[mm.group(1)]
    v = 's' if re.search(r'\bs\b', t) else '_'
    w = 'toneOf' if 'toneOf' in t else '_'
    out = '/-- material_dynamic_colors.rs %d-%d -/\n' % (a, b)
    out += 'def %s %s: DynamicColor Role F where\n' % (camel(n), '(loopFuel : Nat) ' if 'loopFuel' in t else '')
    out += '  name := "%s"\n  palette := fun s => s.%s\n' % (name, pal[palette])
    if '\n' in t:
        out += '  tone := fun %s %s =>\n      %s' % (v, w, t)
    else:
        out += '  tone := fun %s %s => %s' % (v, w, t)
    if isbg == 'Some(true)':
        out += '\n  isBackground := true'
    else:
        assert isbg == 'None'

    def bgx(x):
        f = re.match(r'Some\(Box::new\(\|(\w+)\| MaterialDynamicColors::(\w+)\((\w*)\)\)\)$', x).group(2)
        return 'highestSurface' if f == 'highest_surface' else '(fun _ => .%s)' % camel(f)
    if bg != 'None':
        out += '\n  background := some ' + bgx(bg)
    if bg2 != 'None':
        out += '\n  secondBackground := some ' + bgx(bg2)
    if curve != 'None':
        out += '\n  contrastCurve := some (curve %s %s %s %s)' % re.match(r'Some\(ContrastCurve::new\(' + NUM + r'\)\)', curve).groups()
    if pair != 'None':
        ra, rb, d, p, st = re.search(r'ToneDeltaPair::new\(\s*MaterialDynamicColors::(\w+)\(\),\s*MaterialDynamicColors::(\w+)\(\),\s*([\d.]+),\s*TonePolarity::(\w+),\s*(\w+),', pair).groups()
        out += '\n  toneDeltaPair := some fun _ =>\n    { roleA := .%s, roleB := .%s, delta := %s, polarity := .%s, stayTogether := %s }' % (camel(ra), camel(rb), d, p.lower(), st)
    defs.append(out)
names = [camel(r[0]) for r in roles]
enum = '\n'.join('  ' + ' '.join('| ' + x for x in names[i:i + 3]) for i in range(0, len(names), 3))
hdr = '''import Verif.Model.DynamicColor
import Verif.Model.Dislike

/-! Model of /repo/src/dynamiccolor/material_dynamic_colors.rs. -/

namespace Mcu.Material

variable {F : Type} [Fl F]

/-- The dynamic colours of `MaterialDynamicColors`, one constructor per public function of
material_dynamic_colors.rs 31-977 without argument. -/
inductive Role
''' + enum + '''
deriving DecidableEq, Repr

/-- `ContrastCurve::new`, contrast_curve.rs 22-29 -/
def curve (low normal medium high : F) : ContrastCurve F := { low, normal, medium, high }

/-- material_dynamic_colors.rs 13-15 -/
def isFidelity (scheme : DynamicScheme F) : Bool :=
  decide (scheme.variant = .fidelity) || decide (scheme.variant = .content)

/-- material_dynamic_colors.rs 16-18 -/
def isMonochrome (scheme : DynamicScheme F) : Bool := decide (scheme.variant = .monochrome)

/-- material_dynamic_colors.rs 23-29 -/
def highestSurface (s : DynamicScheme F) : Role := if s.isDark then .surfaceBright else .surfaceDim

/-- The `while` of material_dynamic_colors.rs 988-1005 with at most `fuel` evaluations of its condition;
`none` if it has not ended by then. -/
def chromaLoop (hue chroma : F) (byDecreasingTone : Bool) :
    Nat → F → F → Hct F → Option F
  | 0, _, _, _ => none
  | fuel + 1, answer, chromaPeak, closestToChroma =>
    if closestToChroma.getChroma < chroma then
      let answer := answer + (if byDecreasingTone then -1.0 else 1.0)
      let potentialSolution := Hct.fromHct hue chroma answer
      if chromaPeak > potentialSolution.getChroma then some answer
      else if Fl.abs (potentialSolution.getChroma - chroma) < 0.4 then some answer
      else
        let potentialDelta := Fl.abs (potentialSolution.getChroma - chroma)
        let currentDelta := Fl.abs (closestToChroma.getChroma - chroma)
        let chromaPeak := Fl.fmax chromaPeak potentialSolution.getChroma
        chromaLoop hue chroma byDecreasingTone fuel answer chromaPeak
          (if potentialDelta < currentDelta then potentialSolution else closestToChroma)
    else some answer

/-- material_dynamic_colors.rs 978-1008; `none`: the loop does not end within `fuel` rounds. -/
def findDesiredChromaByTone (fuel : Nat) (hue chroma tone : F) (byDecreasingTone : Bool) :
    Option F :=
  let closestToChroma := Hct.fromHct hue chroma tone
  if closestToChroma.getChroma < chroma then
    chromaLoop hue chroma byDecreasingTone fuel tone closestToChroma.getChroma closestToChroma
  else some tone

'''
tail = '''
/-- The registry of the Material dynamic colours (material_dynamic_colors.rs 31-977).  `loopFuel` bounds
the rounds of the search in `secondary_container`. -/
def registry (loopFuel : Nat) : Role → DynamicColor Role F
''' + '\n'.join('  | .%s => Material.%s%s' % (camel(r[0]), camel(r[0]), ' loopFuel' if r[0] == 'secondary_container' else '') for r in roles) + '''

/-- dynamic_scheme.rs 145-306 (`get_primary`, `get_on_primary`, ...): the ARGB colour of a role; every
getter builds a new dynamic colour with an empty cache.  `none`: panic or not enough fuel. -/
def roleArgb (fuel loopFuel : Nat) (scheme : DynamicScheme F) (r : Role) : Option Int :=
  (DynamicColor.freshHct (registry loopFuel) fuel r scheme).map Hct.toInt

end Mcu.Material
'''
open('/verif/lean/Verif/Model/Material.lean', 'w').write(hdr + '\n\n'.join(defs) + '\n' + tail)
print(len(roles))
