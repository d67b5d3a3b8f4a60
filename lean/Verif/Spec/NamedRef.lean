import Verif.Spec.HtmlTok
import Verif.Spec.HtmlAtom
/-
The named character references of the HTML standard (13.5): names without the ampersand, and their code points.
Transcribed by a script from generator/whatwg/html/data/named_character_reference.txt.
-/
namespace Verif.Spec.NamedRef
open Verif.Spec.HtmlAtom (codes)
open Verif.Spec.HtmlTok (Refs)

def names0 : Refs := [
  (codes "Aacute;", [0xC1]), (codes "Aacute", [0xC1]), (codes "aacute;", [0xE1]), (codes "aacute", [0xE1]),
  (codes "Abreve;", [0x102]), (codes "abreve;", [0x103]), (codes "ac;", [0x223E]), (codes "acd;", [0x223F]),
  (codes "acE;", [0x223E, 0x333]), (codes "Acirc;", [0xC2]), (codes "Acirc", [0xC2]), (codes "acirc;", [0xE2]),
  (codes "acirc", [0xE2]), (codes "acute;", [0xB4]), (codes "acute", [0xB4]), (codes "Acy;", [0x410]),
  (codes "acy;", [0x430]), (codes "AElig;", [0xC6]), (codes "AElig", [0xC6]), (codes "aelig;", [0xE6]),
  (codes "aelig", [0xE6]), (codes "af;", [0x2061]), (codes "Afr;", [0x1D504]), (codes "afr;", [0x1D51E]),
  (codes "Agrave;", [0xC0]), (codes "Agrave", [0xC0]), (codes "agrave;", [0xE0]), (codes "agrave", [0xE0]),
  (codes "alefsym;", [0x2135]), (codes "aleph;", [0x2135]), (codes "Alpha;", [0x391]), (codes "alpha;", [0x3B1]),
  (codes "Amacr;", [0x100]), (codes "amacr;", [0x101]), (codes "amalg;", [0x2A3F]), (codes "AMP;", [0x26]),
  (codes "AMP", [0x26]), (codes "amp;", [0x26]), (codes "amp", [0x26]), (codes "And;", [0x2A53]),
  (codes "and;", [0x2227]), (codes "andand;", [0x2A55]), (codes "andd;", [0x2A5C]), (codes "andslope;", [0x2A58]),
  (codes "andv;", [0x2A5A]), (codes "ang;", [0x2220]), (codes "ange;", [0x29A4]), (codes "angle;", [0x2220]),
  (codes "angmsd;", [0x2221]), (codes "angmsdaa;", [0x29A8]), (codes "angmsdab;", [0x29A9]),
  (codes "angmsdac;", [0x29AA]), (codes "angmsdad;", [0x29AB]), (codes "angmsdae;", [0x29AC]),
  (codes "angmsdaf;", [0x29AD]), (codes "angmsdag;", [0x29AE]), (codes "angmsdah;", [0x29AF]),
  (codes "angrt;", [0x221F]), (codes "angrtvb;", [0x22BE]), (codes "angrtvbd;", [0x299D]), (codes "angsph;", [0x2222]),
  (codes "angst;", [0xC5]), (codes "angzarr;", [0x237C]), (codes "Aogon;", [0x104]), (codes "aogon;", [0x105]),
  (codes "Aopf;", [0x1D538]), (codes "aopf;", [0x1D552]), (codes "ap;", [0x2248]), (codes "apacir;", [0x2A6F]),
  (codes "apE;", [0x2A70]), (codes "ape;", [0x224A]), (codes "apid;", [0x224B]), (codes "apos;", [0x27]),
  (codes "ApplyFunction;", [0x2061]), (codes "approx;", [0x2248]), (codes "approxeq;", [0x224A]),
  (codes "Aring;", [0xC5]), (codes "Aring", [0xC5]), (codes "aring;", [0xE5]), (codes "aring", [0xE5]),
  (codes "Ascr;", [0x1D49C]), (codes "ascr;", [0x1D4B6]), (codes "Assign;", [0x2254]), (codes "ast;", [0x2A]),
  (codes "asymp;", [0x2248]), (codes "asympeq;", [0x224D]), (codes "Atilde;", [0xC3]), (codes "Atilde", [0xC3]),
  (codes "atilde;", [0xE3]), (codes "atilde", [0xE3]), (codes "Auml;", [0xC4]), (codes "Auml", [0xC4]),
  (codes "auml;", [0xE4]), (codes "auml", [0xE4]), (codes "awconint;", [0x2233]), (codes "awint;", [0x2A11]),
  (codes "backcong;", [0x224C]), (codes "backepsilon;", [0x3F6]), (codes "backprime;", [0x2035]),
  (codes "backsim;", [0x223D]), (codes "backsimeq;", [0x22CD]), (codes "Backslash;", [0x2216]),
  (codes "Barv;", [0x2AE7]), (codes "barvee;", [0x22BD]), (codes "Barwed;", [0x2306]), (codes "barwed;", [0x2305]),
  (codes "barwedge;", [0x2305]), (codes "bbrk;", [0x23B5]), (codes "bbrktbrk;", [0x23B6]), (codes "bcong;", [0x224C]),
  (codes "Bcy;", [0x411]), (codes "bcy;", [0x431]), (codes "bdquo;", [0x201E]), (codes "becaus;", [0x2235]),
  (codes "Because;", [0x2235]), (codes "because;", [0x2235]), (codes "bemptyv;", [0x29B0]), (codes "bepsi;", [0x3F6]),
  (codes "bernou;", [0x212C]), (codes "Bernoullis;", [0x212C]), (codes "Beta;", [0x392]), (codes "beta;", [0x3B2]),
  (codes "beth;", [0x2136]), (codes "between;", [0x226C]), (codes "Bfr;", [0x1D505]), (codes "bfr;", [0x1D51F]),
  (codes "bigcap;", [0x22C2]), (codes "bigcirc;", [0x25EF]), (codes "bigcup;", [0x22C3]), (codes "bigodot;", [0x2A00]),
  (codes "bigoplus;", [0x2A01]), (codes "bigotimes;", [0x2A02]), (codes "bigsqcup;", [0x2A06]),
  (codes "bigstar;", [0x2605]), (codes "bigtriangledown;", [0x25BD]), (codes "bigtriangleup;", [0x25B3]),
  (codes "biguplus;", [0x2A04]), (codes "bigvee;", [0x22C1]), (codes "bigwedge;", [0x22C0]), (codes "bkarow;", [0x290D]),
  (codes "blacklozenge;", [0x29EB]), (codes "blacksquare;", [0x25AA]), (codes "blacktriangle;", [0x25B4]),
  (codes "blacktriangledown;", [0x25BE]), (codes "blacktriangleleft;", [0x25C2]),
  (codes "blacktriangleright;", [0x25B8]), (codes "blank;", [0x2423]), (codes "blk12;", [0x2592]),
  (codes "blk14;", [0x2591]), (codes "blk34;", [0x2593]), (codes "block;", [0x2588]), (codes "bne;", [0x3D, 0x20E5]),
  (codes "bnequiv;", [0x2261, 0x20E5]), (codes "bNot;", [0x2AED]), (codes "bnot;", [0x2310]), (codes "Bopf;", [0x1D539]),
  (codes "bopf;", [0x1D553]), (codes "bot;", [0x22A5]), (codes "bottom;", [0x22A5]), (codes "bowtie;", [0x22C8]),
  (codes "boxbox;", [0x29C9]), (codes "boxDL;", [0x2557]), (codes "boxDl;", [0x2556]), (codes "boxdL;", [0x2555]),
  (codes "boxdl;", [0x2510]), (codes "boxDR;", [0x2554]), (codes "boxDr;", [0x2553]), (codes "boxdR;", [0x2552]),
  (codes "boxdr;", [0x250C]), (codes "boxH;", [0x2550]), (codes "boxh;", [0x2500]), (codes "boxHD;", [0x2566]),
  (codes "boxHd;", [0x2564]), (codes "boxhD;", [0x2565]), (codes "boxhd;", [0x252C]), (codes "boxHU;", [0x2569]),
  (codes "boxHu;", [0x2567]), (codes "boxhU;", [0x2568]), (codes "boxhu;", [0x2534]), (codes "boxminus;", [0x229F]),
  (codes "boxplus;", [0x229E]), (codes "boxtimes;", [0x22A0]), (codes "boxUL;", [0x255D]), (codes "boxUl;", [0x255C]),
  (codes "boxuL;", [0x255B]), (codes "boxul;", [0x2518]), (codes "boxUR;", [0x255A]), (codes "boxUr;", [0x2559]),
  (codes "boxuR;", [0x2558]), (codes "boxur;", [0x2514]), (codes "boxV;", [0x2551]), (codes "boxv;", [0x2502]),
  (codes "boxVH;", [0x256C]), (codes "boxVh;", [0x256B]), (codes "boxvH;", [0x256A]), (codes "boxvh;", [0x253C]),
  (codes "boxVL;", [0x2563]), (codes "boxVl;", [0x2562]), (codes "boxvL;", [0x2561]), (codes "boxvl;", [0x2524])]

def names1 : Refs := [
  (codes "boxVR;", [0x2560]), (codes "boxVr;", [0x255F]), (codes "boxvR;", [0x255E]), (codes "boxvr;", [0x251C]),
  (codes "bprime;", [0x2035]), (codes "Breve;", [0x2D8]), (codes "breve;", [0x2D8]), (codes "brvbar;", [0xA6]),
  (codes "brvbar", [0xA6]), (codes "Bscr;", [0x212C]), (codes "bscr;", [0x1D4B7]), (codes "bsemi;", [0x204F]),
  (codes "bsim;", [0x223D]), (codes "bsime;", [0x22CD]), (codes "bsol;", [0x5C]), (codes "bsolb;", [0x29C5]),
  (codes "bsolhsub;", [0x27C8]), (codes "bull;", [0x2022]), (codes "bullet;", [0x2022]), (codes "bump;", [0x224E]),
  (codes "bumpE;", [0x2AAE]), (codes "bumpe;", [0x224F]), (codes "Bumpeq;", [0x224E]), (codes "bumpeq;", [0x224F]),
  (codes "Cacute;", [0x106]), (codes "cacute;", [0x107]), (codes "Cap;", [0x22D2]), (codes "cap;", [0x2229]),
  (codes "capand;", [0x2A44]), (codes "capbrcup;", [0x2A49]), (codes "capcap;", [0x2A4B]), (codes "capcup;", [0x2A47]),
  (codes "capdot;", [0x2A40]), (codes "CapitalDifferentialD;", [0x2145]), (codes "caps;", [0x2229, 0xFE00]),
  (codes "caret;", [0x2041]), (codes "caron;", [0x2C7]), (codes "Cayleys;", [0x212D]), (codes "ccaps;", [0x2A4D]),
  (codes "Ccaron;", [0x10C]), (codes "ccaron;", [0x10D]), (codes "Ccedil;", [0xC7]), (codes "Ccedil", [0xC7]),
  (codes "ccedil;", [0xE7]), (codes "ccedil", [0xE7]), (codes "Ccirc;", [0x108]), (codes "ccirc;", [0x109]),
  (codes "Cconint;", [0x2230]), (codes "ccups;", [0x2A4C]), (codes "ccupssm;", [0x2A50]), (codes "Cdot;", [0x10A]),
  (codes "cdot;", [0x10B]), (codes "cedil;", [0xB8]), (codes "cedil", [0xB8]), (codes "Cedilla;", [0xB8]),
  (codes "cemptyv;", [0x29B2]), (codes "cent;", [0xA2]), (codes "cent", [0xA2]), (codes "CenterDot;", [0xB7]),
  (codes "centerdot;", [0xB7]), (codes "Cfr;", [0x212D]), (codes "cfr;", [0x1D520]), (codes "CHcy;", [0x427]),
  (codes "chcy;", [0x447]), (codes "check;", [0x2713]), (codes "checkmark;", [0x2713]), (codes "Chi;", [0x3A7]),
  (codes "chi;", [0x3C7]), (codes "cir;", [0x25CB]), (codes "circ;", [0x2C6]), (codes "circeq;", [0x2257]),
  (codes "circlearrowleft;", [0x21BA]), (codes "circlearrowright;", [0x21BB]), (codes "circledast;", [0x229B]),
  (codes "circledcirc;", [0x229A]), (codes "circleddash;", [0x229D]), (codes "CircleDot;", [0x2299]),
  (codes "circledR;", [0xAE]), (codes "circledS;", [0x24C8]), (codes "CircleMinus;", [0x2296]),
  (codes "CirclePlus;", [0x2295]), (codes "CircleTimes;", [0x2297]), (codes "cirE;", [0x29C3]),
  (codes "cire;", [0x2257]), (codes "cirfnint;", [0x2A10]), (codes "cirmid;", [0x2AEF]), (codes "cirscir;", [0x29C2]),
  (codes "ClockwiseContourIntegral;", [0x2232]), (codes "CloseCurlyDoubleQuote;", [0x201D]),
  (codes "CloseCurlyQuote;", [0x2019]), (codes "clubs;", [0x2663]), (codes "clubsuit;", [0x2663]),
  (codes "Colon;", [0x2237]), (codes "colon;", [0x3A]), (codes "Colone;", [0x2A74]), (codes "colone;", [0x2254]),
  (codes "coloneq;", [0x2254]), (codes "comma;", [0x2C]), (codes "commat;", [0x40]), (codes "comp;", [0x2201]),
  (codes "compfn;", [0x2218]), (codes "complement;", [0x2201]), (codes "complexes;", [0x2102]),
  (codes "cong;", [0x2245]), (codes "congdot;", [0x2A6D]), (codes "Congruent;", [0x2261]), (codes "Conint;", [0x222F]),
  (codes "conint;", [0x222E]), (codes "ContourIntegral;", [0x222E]), (codes "Copf;", [0x2102]),
  (codes "copf;", [0x1D554]), (codes "coprod;", [0x2210]), (codes "Coproduct;", [0x2210]), (codes "COPY;", [0xA9]),
  (codes "COPY", [0xA9]), (codes "copy;", [0xA9]), (codes "copy", [0xA9]), (codes "copysr;", [0x2117]),
  (codes "CounterClockwiseContourIntegral;", [0x2233]), (codes "crarr;", [0x21B5]), (codes "Cross;", [0x2A2F]),
  (codes "cross;", [0x2717]), (codes "Cscr;", [0x1D49E]), (codes "cscr;", [0x1D4B8]), (codes "csub;", [0x2ACF]),
  (codes "csube;", [0x2AD1]), (codes "csup;", [0x2AD0]), (codes "csupe;", [0x2AD2]), (codes "ctdot;", [0x22EF]),
  (codes "cudarrl;", [0x2938]), (codes "cudarrr;", [0x2935]), (codes "cuepr;", [0x22DE]), (codes "cuesc;", [0x22DF]),
  (codes "cularr;", [0x21B6]), (codes "cularrp;", [0x293D]), (codes "Cup;", [0x22D3]), (codes "cup;", [0x222A]),
  (codes "cupbrcap;", [0x2A48]), (codes "CupCap;", [0x224D]), (codes "cupcap;", [0x2A46]), (codes "cupcup;", [0x2A4A]),
  (codes "cupdot;", [0x228D]), (codes "cupor;", [0x2A45]), (codes "cups;", [0x222A, 0xFE00]),
  (codes "curarr;", [0x21B7]), (codes "curarrm;", [0x293C]), (codes "curlyeqprec;", [0x22DE]),
  (codes "curlyeqsucc;", [0x22DF]), (codes "curlyvee;", [0x22CE]), (codes "curlywedge;", [0x22CF]),
  (codes "curren;", [0xA4]), (codes "curren", [0xA4]), (codes "curvearrowleft;", [0x21B6]),
  (codes "curvearrowright;", [0x21B7]), (codes "cuvee;", [0x22CE]), (codes "cuwed;", [0x22CF]),
  (codes "cwconint;", [0x2232]), (codes "cwint;", [0x2231]), (codes "cylcty;", [0x232D]), (codes "Dagger;", [0x2021]),
  (codes "dagger;", [0x2020]), (codes "daleth;", [0x2138]), (codes "Darr;", [0x21A1]), (codes "dArr;", [0x21D3]),
  (codes "darr;", [0x2193]), (codes "dash;", [0x2010]), (codes "Dashv;", [0x2AE4]), (codes "dashv;", [0x22A3]),
  (codes "dbkarow;", [0x290F]), (codes "dblac;", [0x2DD]), (codes "Dcaron;", [0x10E]), (codes "dcaron;", [0x10F]),
  (codes "Dcy;", [0x414]), (codes "dcy;", [0x434]), (codes "DD;", [0x2145]), (codes "dd;", [0x2146]),
  (codes "ddagger;", [0x2021]), (codes "ddarr;", [0x21CA]), (codes "DDotrahd;", [0x2911]), (codes "ddotseq;", [0x2A77]),
  (codes "deg;", [0xB0]), (codes "deg", [0xB0]), (codes "Del;", [0x2207]), (codes "Delta;", [0x394]),
  (codes "delta;", [0x3B4]), (codes "demptyv;", [0x29B1]), (codes "dfisht;", [0x297F]), (codes "Dfr;", [0x1D507]),
  (codes "dfr;", [0x1D521]), (codes "dHar;", [0x2965]), (codes "dharl;", [0x21C3]), (codes "dharr;", [0x21C2]),
  (codes "DiacriticalAcute;", [0xB4]), (codes "DiacriticalDot;", [0x2D9]), (codes "DiacriticalDoubleAcute;", [0x2DD]),
  (codes "DiacriticalGrave;", [0x60]), (codes "DiacriticalTilde;", [0x2DC]), (codes "diam;", [0x22C4]),
  (codes "Diamond;", [0x22C4]), (codes "diamond;", [0x22C4])]

def names2 : Refs := [
  (codes "diamondsuit;", [0x2666]), (codes "diams;", [0x2666]), (codes "die;", [0xA8]),
  (codes "DifferentialD;", [0x2146]), (codes "digamma;", [0x3DD]), (codes "disin;", [0x22F2]), (codes "div;", [0xF7]),
  (codes "divide;", [0xF7]), (codes "divide", [0xF7]), (codes "divideontimes;", [0x22C7]), (codes "divonx;", [0x22C7]),
  (codes "DJcy;", [0x402]), (codes "djcy;", [0x452]), (codes "dlcorn;", [0x231E]), (codes "dlcrop;", [0x230D]),
  (codes "dollar;", [0x24]), (codes "Dopf;", [0x1D53B]), (codes "dopf;", [0x1D555]), (codes "Dot;", [0xA8]),
  (codes "dot;", [0x2D9]), (codes "DotDot;", [0x20DC]), (codes "doteq;", [0x2250]), (codes "doteqdot;", [0x2251]),
  (codes "DotEqual;", [0x2250]), (codes "dotminus;", [0x2238]), (codes "dotplus;", [0x2214]),
  (codes "dotsquare;", [0x22A1]), (codes "doublebarwedge;", [0x2306]), (codes "DoubleContourIntegral;", [0x222F]),
  (codes "DoubleDot;", [0xA8]), (codes "DoubleDownArrow;", [0x21D3]), (codes "DoubleLeftArrow;", [0x21D0]),
  (codes "DoubleLeftRightArrow;", [0x21D4]), (codes "DoubleLeftTee;", [0x2AE4]),
  (codes "DoubleLongLeftArrow;", [0x27F8]), (codes "DoubleLongLeftRightArrow;", [0x27FA]),
  (codes "DoubleLongRightArrow;", [0x27F9]), (codes "DoubleRightArrow;", [0x21D2]), (codes "DoubleRightTee;", [0x22A8]),
  (codes "DoubleUpArrow;", [0x21D1]), (codes "DoubleUpDownArrow;", [0x21D5]), (codes "DoubleVerticalBar;", [0x2225]),
  (codes "DownArrow;", [0x2193]), (codes "Downarrow;", [0x21D3]), (codes "downarrow;", [0x2193]),
  (codes "DownArrowBar;", [0x2913]), (codes "DownArrowUpArrow;", [0x21F5]), (codes "DownBreve;", [0x311]),
  (codes "downdownarrows;", [0x21CA]), (codes "downharpoonleft;", [0x21C3]), (codes "downharpoonright;", [0x21C2]),
  (codes "DownLeftRightVector;", [0x2950]), (codes "DownLeftTeeVector;", [0x295E]), (codes "DownLeftVector;", [0x21BD]),
  (codes "DownLeftVectorBar;", [0x2956]), (codes "DownRightTeeVector;", [0x295F]), (codes "DownRightVector;", [0x21C1]),
  (codes "DownRightVectorBar;", [0x2957]), (codes "DownTee;", [0x22A4]), (codes "DownTeeArrow;", [0x21A7]),
  (codes "drbkarow;", [0x2910]), (codes "drcorn;", [0x231F]), (codes "drcrop;", [0x230C]), (codes "Dscr;", [0x1D49F]),
  (codes "dscr;", [0x1D4B9]), (codes "DScy;", [0x405]), (codes "dscy;", [0x455]), (codes "dsol;", [0x29F6]),
  (codes "Dstrok;", [0x110]), (codes "dstrok;", [0x111]), (codes "dtdot;", [0x22F1]), (codes "dtri;", [0x25BF]),
  (codes "dtrif;", [0x25BE]), (codes "duarr;", [0x21F5]), (codes "duhar;", [0x296F]), (codes "dwangle;", [0x29A6]),
  (codes "DZcy;", [0x40F]), (codes "dzcy;", [0x45F]), (codes "dzigrarr;", [0x27FF]), (codes "Eacute;", [0xC9]),
  (codes "Eacute", [0xC9]), (codes "eacute;", [0xE9]), (codes "eacute", [0xE9]), (codes "easter;", [0x2A6E]),
  (codes "Ecaron;", [0x11A]), (codes "ecaron;", [0x11B]), (codes "ecir;", [0x2256]), (codes "Ecirc;", [0xCA]),
  (codes "Ecirc", [0xCA]), (codes "ecirc;", [0xEA]), (codes "ecirc", [0xEA]), (codes "ecolon;", [0x2255]),
  (codes "Ecy;", [0x42D]), (codes "ecy;", [0x44D]), (codes "eDDot;", [0x2A77]), (codes "Edot;", [0x116]),
  (codes "eDot;", [0x2251]), (codes "edot;", [0x117]), (codes "ee;", [0x2147]), (codes "efDot;", [0x2252]),
  (codes "Efr;", [0x1D508]), (codes "efr;", [0x1D522]), (codes "eg;", [0x2A9A]), (codes "Egrave;", [0xC8]),
  (codes "Egrave", [0xC8]), (codes "egrave;", [0xE8]), (codes "egrave", [0xE8]), (codes "egs;", [0x2A96]),
  (codes "egsdot;", [0x2A98]), (codes "el;", [0x2A99]), (codes "Element;", [0x2208]), (codes "elinters;", [0x23E7]),
  (codes "ell;", [0x2113]), (codes "els;", [0x2A95]), (codes "elsdot;", [0x2A97]), (codes "Emacr;", [0x112]),
  (codes "emacr;", [0x113]), (codes "empty;", [0x2205]), (codes "emptyset;", [0x2205]),
  (codes "EmptySmallSquare;", [0x25FB]), (codes "emptyv;", [0x2205]), (codes "EmptyVerySmallSquare;", [0x25AB]),
  (codes "emsp;", [0x2003]), (codes "emsp13;", [0x2004]), (codes "emsp14;", [0x2005]), (codes "ENG;", [0x14A]),
  (codes "eng;", [0x14B]), (codes "ensp;", [0x2002]), (codes "Eogon;", [0x118]), (codes "eogon;", [0x119]),
  (codes "Eopf;", [0x1D53C]), (codes "eopf;", [0x1D556]), (codes "epar;", [0x22D5]), (codes "eparsl;", [0x29E3]),
  (codes "eplus;", [0x2A71]), (codes "epsi;", [0x3B5]), (codes "Epsilon;", [0x395]), (codes "epsilon;", [0x3B5]),
  (codes "epsiv;", [0x3F5]), (codes "eqcirc;", [0x2256]), (codes "eqcolon;", [0x2255]), (codes "eqsim;", [0x2242]),
  (codes "eqslantgtr;", [0x2A96]), (codes "eqslantless;", [0x2A95]), (codes "Equal;", [0x2A75]),
  (codes "equals;", [0x3D]), (codes "EqualTilde;", [0x2242]), (codes "equest;", [0x225F]),
  (codes "Equilibrium;", [0x21CC]), (codes "equiv;", [0x2261]), (codes "equivDD;", [0x2A78]),
  (codes "eqvparsl;", [0x29E5]), (codes "erarr;", [0x2971]), (codes "erDot;", [0x2253]), (codes "Escr;", [0x2130]),
  (codes "escr;", [0x212F]), (codes "esdot;", [0x2250]), (codes "Esim;", [0x2A73]), (codes "esim;", [0x2242]),
  (codes "Eta;", [0x397]), (codes "eta;", [0x3B7]), (codes "ETH;", [0xD0]), (codes "ETH", [0xD0]),
  (codes "eth;", [0xF0]), (codes "eth", [0xF0]), (codes "Euml;", [0xCB]), (codes "Euml", [0xCB]),
  (codes "euml;", [0xEB]), (codes "euml", [0xEB]), (codes "euro;", [0x20AC]), (codes "excl;", [0x21]),
  (codes "exist;", [0x2203]), (codes "Exists;", [0x2203]), (codes "expectation;", [0x2130]),
  (codes "ExponentialE;", [0x2147]), (codes "exponentiale;", [0x2147]), (codes "fallingdotseq;", [0x2252]),
  (codes "Fcy;", [0x424]), (codes "fcy;", [0x444]), (codes "female;", [0x2640]), (codes "ffilig;", [0xFB03]),
  (codes "fflig;", [0xFB00]), (codes "ffllig;", [0xFB04]), (codes "Ffr;", [0x1D509]), (codes "ffr;", [0x1D523]),
  (codes "filig;", [0xFB01]), (codes "FilledSmallSquare;", [0x25FC]), (codes "FilledVerySmallSquare;", [0x25AA]),
  (codes "fjlig;", [0x66, 0x6A]), (codes "flat;", [0x266D]), (codes "fllig;", [0xFB02]), (codes "fltns;", [0x25B1]),
  (codes "fnof;", [0x192]), (codes "Fopf;", [0x1D53D]), (codes "fopf;", [0x1D557]), (codes "ForAll;", [0x2200]),
  (codes "forall;", [0x2200]), (codes "fork;", [0x22D4]), (codes "forkv;", [0x2AD9]), (codes "Fouriertrf;", [0x2131])]

def names3 : Refs := [
  (codes "fpartint;", [0x2A0D]), (codes "frac12;", [0xBD]), (codes "frac12", [0xBD]), (codes "frac13;", [0x2153]),
  (codes "frac14;", [0xBC]), (codes "frac14", [0xBC]), (codes "frac15;", [0x2155]), (codes "frac16;", [0x2159]),
  (codes "frac18;", [0x215B]), (codes "frac23;", [0x2154]), (codes "frac25;", [0x2156]), (codes "frac34;", [0xBE]),
  (codes "frac34", [0xBE]), (codes "frac35;", [0x2157]), (codes "frac38;", [0x215C]), (codes "frac45;", [0x2158]),
  (codes "frac56;", [0x215A]), (codes "frac58;", [0x215D]), (codes "frac78;", [0x215E]), (codes "frasl;", [0x2044]),
  (codes "frown;", [0x2322]), (codes "Fscr;", [0x2131]), (codes "fscr;", [0x1D4BB]), (codes "gacute;", [0x1F5]),
  (codes "Gamma;", [0x393]), (codes "gamma;", [0x3B3]), (codes "Gammad;", [0x3DC]), (codes "gammad;", [0x3DD]),
  (codes "gap;", [0x2A86]), (codes "Gbreve;", [0x11E]), (codes "gbreve;", [0x11F]), (codes "Gcedil;", [0x122]),
  (codes "Gcirc;", [0x11C]), (codes "gcirc;", [0x11D]), (codes "Gcy;", [0x413]), (codes "gcy;", [0x433]),
  (codes "Gdot;", [0x120]), (codes "gdot;", [0x121]), (codes "gE;", [0x2267]), (codes "ge;", [0x2265]),
  (codes "gEl;", [0x2A8C]), (codes "gel;", [0x22DB]), (codes "geq;", [0x2265]), (codes "geqq;", [0x2267]),
  (codes "geqslant;", [0x2A7E]), (codes "ges;", [0x2A7E]), (codes "gescc;", [0x2AA9]), (codes "gesdot;", [0x2A80]),
  (codes "gesdoto;", [0x2A82]), (codes "gesdotol;", [0x2A84]), (codes "gesl;", [0x22DB, 0xFE00]),
  (codes "gesles;", [0x2A94]), (codes "Gfr;", [0x1D50A]), (codes "gfr;", [0x1D524]), (codes "Gg;", [0x22D9]),
  (codes "gg;", [0x226B]), (codes "ggg;", [0x22D9]), (codes "gimel;", [0x2137]), (codes "GJcy;", [0x403]),
  (codes "gjcy;", [0x453]), (codes "gl;", [0x2277]), (codes "gla;", [0x2AA5]), (codes "glE;", [0x2A92]),
  (codes "glj;", [0x2AA4]), (codes "gnap;", [0x2A8A]), (codes "gnapprox;", [0x2A8A]), (codes "gnE;", [0x2269]),
  (codes "gne;", [0x2A88]), (codes "gneq;", [0x2A88]), (codes "gneqq;", [0x2269]), (codes "gnsim;", [0x22E7]),
  (codes "Gopf;", [0x1D53E]), (codes "gopf;", [0x1D558]), (codes "grave;", [0x60]), (codes "GreaterEqual;", [0x2265]),
  (codes "GreaterEqualLess;", [0x22DB]), (codes "GreaterFullEqual;", [0x2267]), (codes "GreaterGreater;", [0x2AA2]),
  (codes "GreaterLess;", [0x2277]), (codes "GreaterSlantEqual;", [0x2A7E]), (codes "GreaterTilde;", [0x2273]),
  (codes "Gscr;", [0x1D4A2]), (codes "gscr;", [0x210A]), (codes "gsim;", [0x2273]), (codes "gsime;", [0x2A8E]),
  (codes "gsiml;", [0x2A90]), (codes "GT;", [0x3E]), (codes "GT", [0x3E]), (codes "Gt;", [0x226B]),
  (codes "gt;", [0x3E]), (codes "gt", [0x3E]), (codes "gtcc;", [0x2AA7]), (codes "gtcir;", [0x2A7A]),
  (codes "gtdot;", [0x22D7]), (codes "gtlPar;", [0x2995]), (codes "gtquest;", [0x2A7C]), (codes "gtrapprox;", [0x2A86]),
  (codes "gtrarr;", [0x2978]), (codes "gtrdot;", [0x22D7]), (codes "gtreqless;", [0x22DB]),
  (codes "gtreqqless;", [0x2A8C]), (codes "gtrless;", [0x2277]), (codes "gtrsim;", [0x2273]),
  (codes "gvertneqq;", [0x2269, 0xFE00]), (codes "gvnE;", [0x2269, 0xFE00]), (codes "Hacek;", [0x2C7]),
  (codes "hairsp;", [0x200A]), (codes "half;", [0xBD]), (codes "hamilt;", [0x210B]), (codes "HARDcy;", [0x42A]),
  (codes "hardcy;", [0x44A]), (codes "hArr;", [0x21D4]), (codes "harr;", [0x2194]), (codes "harrcir;", [0x2948]),
  (codes "harrw;", [0x21AD]), (codes "Hat;", [0x5E]), (codes "hbar;", [0x210F]), (codes "Hcirc;", [0x124]),
  (codes "hcirc;", [0x125]), (codes "hearts;", [0x2665]), (codes "heartsuit;", [0x2665]), (codes "hellip;", [0x2026]),
  (codes "hercon;", [0x22B9]), (codes "Hfr;", [0x210C]), (codes "hfr;", [0x1D525]), (codes "HilbertSpace;", [0x210B]),
  (codes "hksearow;", [0x2925]), (codes "hkswarow;", [0x2926]), (codes "hoarr;", [0x21FF]), (codes "homtht;", [0x223B]),
  (codes "hookleftarrow;", [0x21A9]), (codes "hookrightarrow;", [0x21AA]), (codes "Hopf;", [0x210D]),
  (codes "hopf;", [0x1D559]), (codes "horbar;", [0x2015]), (codes "HorizontalLine;", [0x2500]),
  (codes "Hscr;", [0x210B]), (codes "hscr;", [0x1D4BD]), (codes "hslash;", [0x210F]), (codes "Hstrok;", [0x126]),
  (codes "hstrok;", [0x127]), (codes "HumpDownHump;", [0x224E]), (codes "HumpEqual;", [0x224F]),
  (codes "hybull;", [0x2043]), (codes "hyphen;", [0x2010]), (codes "Iacute;", [0xCD]), (codes "Iacute", [0xCD]),
  (codes "iacute;", [0xED]), (codes "iacute", [0xED]), (codes "ic;", [0x2063]), (codes "Icirc;", [0xCE]),
  (codes "Icirc", [0xCE]), (codes "icirc;", [0xEE]), (codes "icirc", [0xEE]), (codes "Icy;", [0x418]),
  (codes "icy;", [0x438]), (codes "Idot;", [0x130]), (codes "IEcy;", [0x415]), (codes "iecy;", [0x435]),
  (codes "iexcl;", [0xA1]), (codes "iexcl", [0xA1]), (codes "iff;", [0x21D4]), (codes "Ifr;", [0x2111]),
  (codes "ifr;", [0x1D526]), (codes "Igrave;", [0xCC]), (codes "Igrave", [0xCC]), (codes "igrave;", [0xEC]),
  (codes "igrave", [0xEC]), (codes "ii;", [0x2148]), (codes "iiiint;", [0x2A0C]), (codes "iiint;", [0x222D]),
  (codes "iinfin;", [0x29DC]), (codes "iiota;", [0x2129]), (codes "IJlig;", [0x132]), (codes "ijlig;", [0x133]),
  (codes "Im;", [0x2111]), (codes "Imacr;", [0x12A]), (codes "imacr;", [0x12B]), (codes "image;", [0x2111]),
  (codes "ImaginaryI;", [0x2148]), (codes "imagline;", [0x2110]), (codes "imagpart;", [0x2111]),
  (codes "imath;", [0x131]), (codes "imof;", [0x22B7]), (codes "imped;", [0x1B5]), (codes "Implies;", [0x21D2]),
  (codes "in;", [0x2208]), (codes "incare;", [0x2105]), (codes "infin;", [0x221E]), (codes "infintie;", [0x29DD]),
  (codes "inodot;", [0x131]), (codes "Int;", [0x222C]), (codes "int;", [0x222B]), (codes "intcal;", [0x22BA]),
  (codes "integers;", [0x2124]), (codes "Integral;", [0x222B]), (codes "intercal;", [0x22BA]),
  (codes "Intersection;", [0x22C2]), (codes "intlarhk;", [0x2A17]), (codes "intprod;", [0x2A3C])]

def names4 : Refs := [
  (codes "InvisibleComma;", [0x2063]), (codes "InvisibleTimes;", [0x2062]), (codes "IOcy;", [0x401]),
  (codes "iocy;", [0x451]), (codes "Iogon;", [0x12E]), (codes "iogon;", [0x12F]), (codes "Iopf;", [0x1D540]),
  (codes "iopf;", [0x1D55A]), (codes "Iota;", [0x399]), (codes "iota;", [0x3B9]), (codes "iprod;", [0x2A3C]),
  (codes "iquest;", [0xBF]), (codes "iquest", [0xBF]), (codes "Iscr;", [0x2110]), (codes "iscr;", [0x1D4BE]),
  (codes "isin;", [0x2208]), (codes "isindot;", [0x22F5]), (codes "isinE;", [0x22F9]), (codes "isins;", [0x22F4]),
  (codes "isinsv;", [0x22F3]), (codes "isinv;", [0x2208]), (codes "it;", [0x2062]), (codes "Itilde;", [0x128]),
  (codes "itilde;", [0x129]), (codes "Iukcy;", [0x406]), (codes "iukcy;", [0x456]), (codes "Iuml;", [0xCF]),
  (codes "Iuml", [0xCF]), (codes "iuml;", [0xEF]), (codes "iuml", [0xEF]), (codes "Jcirc;", [0x134]),
  (codes "jcirc;", [0x135]), (codes "Jcy;", [0x419]), (codes "jcy;", [0x439]), (codes "Jfr;", [0x1D50D]),
  (codes "jfr;", [0x1D527]), (codes "jmath;", [0x237]), (codes "Jopf;", [0x1D541]), (codes "jopf;", [0x1D55B]),
  (codes "Jscr;", [0x1D4A5]), (codes "jscr;", [0x1D4BF]), (codes "Jsercy;", [0x408]), (codes "jsercy;", [0x458]),
  (codes "Jukcy;", [0x404]), (codes "jukcy;", [0x454]), (codes "Kappa;", [0x39A]), (codes "kappa;", [0x3BA]),
  (codes "kappav;", [0x3F0]), (codes "Kcedil;", [0x136]), (codes "kcedil;", [0x137]), (codes "Kcy;", [0x41A]),
  (codes "kcy;", [0x43A]), (codes "Kfr;", [0x1D50E]), (codes "kfr;", [0x1D528]), (codes "kgreen;", [0x138]),
  (codes "KHcy;", [0x425]), (codes "khcy;", [0x445]), (codes "KJcy;", [0x40C]), (codes "kjcy;", [0x45C]),
  (codes "Kopf;", [0x1D542]), (codes "kopf;", [0x1D55C]), (codes "Kscr;", [0x1D4A6]), (codes "kscr;", [0x1D4C0]),
  (codes "lAarr;", [0x21DA]), (codes "Lacute;", [0x139]), (codes "lacute;", [0x13A]), (codes "laemptyv;", [0x29B4]),
  (codes "lagran;", [0x2112]), (codes "Lambda;", [0x39B]), (codes "lambda;", [0x3BB]), (codes "Lang;", [0x27EA]),
  (codes "lang;", [0x27E8]), (codes "langd;", [0x2991]), (codes "langle;", [0x27E8]), (codes "lap;", [0x2A85]),
  (codes "Laplacetrf;", [0x2112]), (codes "laquo;", [0xAB]), (codes "laquo", [0xAB]), (codes "Larr;", [0x219E]),
  (codes "lArr;", [0x21D0]), (codes "larr;", [0x2190]), (codes "larrb;", [0x21E4]), (codes "larrbfs;", [0x291F]),
  (codes "larrfs;", [0x291D]), (codes "larrhk;", [0x21A9]), (codes "larrlp;", [0x21AB]), (codes "larrpl;", [0x2939]),
  (codes "larrsim;", [0x2973]), (codes "larrtl;", [0x21A2]), (codes "lat;", [0x2AAB]), (codes "lAtail;", [0x291B]),
  (codes "latail;", [0x2919]), (codes "late;", [0x2AAD]), (codes "lates;", [0x2AAD, 0xFE00]), (codes "lBarr;", [0x290E]),
  (codes "lbarr;", [0x290C]), (codes "lbbrk;", [0x2772]), (codes "lbrace;", [0x7B]), (codes "lbrack;", [0x5B]),
  (codes "lbrke;", [0x298B]), (codes "lbrksld;", [0x298F]), (codes "lbrkslu;", [0x298D]), (codes "Lcaron;", [0x13D]),
  (codes "lcaron;", [0x13E]), (codes "Lcedil;", [0x13B]), (codes "lcedil;", [0x13C]), (codes "lceil;", [0x2308]),
  (codes "lcub;", [0x7B]), (codes "Lcy;", [0x41B]), (codes "lcy;", [0x43B]), (codes "ldca;", [0x2936]),
  (codes "ldquo;", [0x201C]), (codes "ldquor;", [0x201E]), (codes "ldrdhar;", [0x2967]), (codes "ldrushar;", [0x294B]),
  (codes "ldsh;", [0x21B2]), (codes "lE;", [0x2266]), (codes "le;", [0x2264]), (codes "LeftAngleBracket;", [0x27E8]),
  (codes "LeftArrow;", [0x2190]), (codes "Leftarrow;", [0x21D0]), (codes "leftarrow;", [0x2190]),
  (codes "LeftArrowBar;", [0x21E4]), (codes "LeftArrowRightArrow;", [0x21C6]), (codes "leftarrowtail;", [0x21A2]),
  (codes "LeftCeiling;", [0x2308]), (codes "LeftDoubleBracket;", [0x27E6]), (codes "LeftDownTeeVector;", [0x2961]),
  (codes "LeftDownVector;", [0x21C3]), (codes "LeftDownVectorBar;", [0x2959]), (codes "LeftFloor;", [0x230A]),
  (codes "leftharpoondown;", [0x21BD]), (codes "leftharpoonup;", [0x21BC]), (codes "leftleftarrows;", [0x21C7]),
  (codes "LeftRightArrow;", [0x2194]), (codes "Leftrightarrow;", [0x21D4]), (codes "leftrightarrow;", [0x2194]),
  (codes "leftrightarrows;", [0x21C6]), (codes "leftrightharpoons;", [0x21CB]), (codes "leftrightsquigarrow;", [0x21AD]),
  (codes "LeftRightVector;", [0x294E]), (codes "LeftTee;", [0x22A3]), (codes "LeftTeeArrow;", [0x21A4]),
  (codes "LeftTeeVector;", [0x295A]), (codes "leftthreetimes;", [0x22CB]), (codes "LeftTriangle;", [0x22B2]),
  (codes "LeftTriangleBar;", [0x29CF]), (codes "LeftTriangleEqual;", [0x22B4]), (codes "LeftUpDownVector;", [0x2951]),
  (codes "LeftUpTeeVector;", [0x2960]), (codes "LeftUpVector;", [0x21BF]), (codes "LeftUpVectorBar;", [0x2958]),
  (codes "LeftVector;", [0x21BC]), (codes "LeftVectorBar;", [0x2952]), (codes "lEg;", [0x2A8B]),
  (codes "leg;", [0x22DA]), (codes "leq;", [0x2264]), (codes "leqq;", [0x2266]), (codes "leqslant;", [0x2A7D]),
  (codes "les;", [0x2A7D]), (codes "lescc;", [0x2AA8]), (codes "lesdot;", [0x2A7F]), (codes "lesdoto;", [0x2A81]),
  (codes "lesdotor;", [0x2A83]), (codes "lesg;", [0x22DA, 0xFE00]), (codes "lesges;", [0x2A93]),
  (codes "lessapprox;", [0x2A85]), (codes "lessdot;", [0x22D6]), (codes "lesseqgtr;", [0x22DA]),
  (codes "lesseqqgtr;", [0x2A8B]), (codes "LessEqualGreater;", [0x22DA]), (codes "LessFullEqual;", [0x2266]),
  (codes "LessGreater;", [0x2276]), (codes "lessgtr;", [0x2276]), (codes "LessLess;", [0x2AA1]),
  (codes "lesssim;", [0x2272]), (codes "LessSlantEqual;", [0x2A7D]), (codes "LessTilde;", [0x2272]),
  (codes "lfisht;", [0x297C]), (codes "lfloor;", [0x230A]), (codes "Lfr;", [0x1D50F]), (codes "lfr;", [0x1D529]),
  (codes "lg;", [0x2276]), (codes "lgE;", [0x2A91]), (codes "lHar;", [0x2962]), (codes "lhard;", [0x21BD]),
  (codes "lharu;", [0x21BC]), (codes "lharul;", [0x296A]), (codes "lhblk;", [0x2584]), (codes "LJcy;", [0x409]),
  (codes "ljcy;", [0x459]), (codes "Ll;", [0x22D8]), (codes "ll;", [0x226A]), (codes "llarr;", [0x21C7]),
  (codes "llcorner;", [0x231E]), (codes "Lleftarrow;", [0x21DA]), (codes "llhard;", [0x296B]),
  (codes "lltri;", [0x25FA]), (codes "Lmidot;", [0x13F]), (codes "lmidot;", [0x140])]

def names5 : Refs := [
  (codes "lmoust;", [0x23B0]), (codes "lmoustache;", [0x23B0]), (codes "lnap;", [0x2A89]), (codes "lnapprox;", [0x2A89]),
  (codes "lnE;", [0x2268]), (codes "lne;", [0x2A87]), (codes "lneq;", [0x2A87]), (codes "lneqq;", [0x2268]),
  (codes "lnsim;", [0x22E6]), (codes "loang;", [0x27EC]), (codes "loarr;", [0x21FD]), (codes "lobrk;", [0x27E6]),
  (codes "LongLeftArrow;", [0x27F5]), (codes "Longleftarrow;", [0x27F8]), (codes "longleftarrow;", [0x27F5]),
  (codes "LongLeftRightArrow;", [0x27F7]), (codes "Longleftrightarrow;", [0x27FA]),
  (codes "longleftrightarrow;", [0x27F7]), (codes "longmapsto;", [0x27FC]), (codes "LongRightArrow;", [0x27F6]),
  (codes "Longrightarrow;", [0x27F9]), (codes "longrightarrow;", [0x27F6]), (codes "looparrowleft;", [0x21AB]),
  (codes "looparrowright;", [0x21AC]), (codes "lopar;", [0x2985]), (codes "Lopf;", [0x1D543]),
  (codes "lopf;", [0x1D55D]), (codes "loplus;", [0x2A2D]), (codes "lotimes;", [0x2A34]), (codes "lowast;", [0x2217]),
  (codes "lowbar;", [0x5F]), (codes "LowerLeftArrow;", [0x2199]), (codes "LowerRightArrow;", [0x2198]),
  (codes "loz;", [0x25CA]), (codes "lozenge;", [0x25CA]), (codes "lozf;", [0x29EB]), (codes "lpar;", [0x28]),
  (codes "lparlt;", [0x2993]), (codes "lrarr;", [0x21C6]), (codes "lrcorner;", [0x231F]), (codes "lrhar;", [0x21CB]),
  (codes "lrhard;", [0x296D]), (codes "lrm;", [0x200E]), (codes "lrtri;", [0x22BF]), (codes "lsaquo;", [0x2039]),
  (codes "Lscr;", [0x2112]), (codes "lscr;", [0x1D4C1]), (codes "Lsh;", [0x21B0]), (codes "lsh;", [0x21B0]),
  (codes "lsim;", [0x2272]), (codes "lsime;", [0x2A8D]), (codes "lsimg;", [0x2A8F]), (codes "lsqb;", [0x5B]),
  (codes "lsquo;", [0x2018]), (codes "lsquor;", [0x201A]), (codes "Lstrok;", [0x141]), (codes "lstrok;", [0x142]),
  (codes "LT;", [0x3C]), (codes "LT", [0x3C]), (codes "Lt;", [0x226A]), (codes "lt;", [0x3C]), (codes "lt", [0x3C]),
  (codes "ltcc;", [0x2AA6]), (codes "ltcir;", [0x2A79]), (codes "ltdot;", [0x22D6]), (codes "lthree;", [0x22CB]),
  (codes "ltimes;", [0x22C9]), (codes "ltlarr;", [0x2976]), (codes "ltquest;", [0x2A7B]), (codes "ltri;", [0x25C3]),
  (codes "ltrie;", [0x22B4]), (codes "ltrif;", [0x25C2]), (codes "ltrPar;", [0x2996]), (codes "lurdshar;", [0x294A]),
  (codes "luruhar;", [0x2966]), (codes "lvertneqq;", [0x2268, 0xFE00]), (codes "lvnE;", [0x2268, 0xFE00]),
  (codes "macr;", [0xAF]), (codes "macr", [0xAF]), (codes "male;", [0x2642]), (codes "malt;", [0x2720]),
  (codes "maltese;", [0x2720]), (codes "Map;", [0x2905]), (codes "map;", [0x21A6]), (codes "mapsto;", [0x21A6]),
  (codes "mapstodown;", [0x21A7]), (codes "mapstoleft;", [0x21A4]), (codes "mapstoup;", [0x21A5]),
  (codes "marker;", [0x25AE]), (codes "mcomma;", [0x2A29]), (codes "Mcy;", [0x41C]), (codes "mcy;", [0x43C]),
  (codes "mdash;", [0x2014]), (codes "mDDot;", [0x223A]), (codes "measuredangle;", [0x2221]),
  (codes "MediumSpace;", [0x205F]), (codes "Mellintrf;", [0x2133]), (codes "Mfr;", [0x1D510]), (codes "mfr;", [0x1D52A]),
  (codes "mho;", [0x2127]), (codes "micro;", [0xB5]), (codes "micro", [0xB5]), (codes "mid;", [0x2223]),
  (codes "midast;", [0x2A]), (codes "midcir;", [0x2AF0]), (codes "middot;", [0xB7]), (codes "middot", [0xB7]),
  (codes "minus;", [0x2212]), (codes "minusb;", [0x229F]), (codes "minusd;", [0x2238]), (codes "minusdu;", [0x2A2A]),
  (codes "MinusPlus;", [0x2213]), (codes "mlcp;", [0x2ADB]), (codes "mldr;", [0x2026]), (codes "mnplus;", [0x2213]),
  (codes "models;", [0x22A7]), (codes "Mopf;", [0x1D544]), (codes "mopf;", [0x1D55E]), (codes "mp;", [0x2213]),
  (codes "Mscr;", [0x2133]), (codes "mscr;", [0x1D4C2]), (codes "mstpos;", [0x223E]), (codes "Mu;", [0x39C]),
  (codes "mu;", [0x3BC]), (codes "multimap;", [0x22B8]), (codes "mumap;", [0x22B8]), (codes "nabla;", [0x2207]),
  (codes "Nacute;", [0x143]), (codes "nacute;", [0x144]), (codes "nang;", [0x2220, 0x20D2]), (codes "nap;", [0x2249]),
  (codes "napE;", [0x2A70, 0x338]), (codes "napid;", [0x224B, 0x338]), (codes "napos;", [0x149]),
  (codes "napprox;", [0x2249]), (codes "natur;", [0x266E]), (codes "natural;", [0x266E]), (codes "naturals;", [0x2115]),
  (codes "nbsp;", [0xA0]), (codes "nbsp", [0xA0]), (codes "nbump;", [0x224E, 0x338]), (codes "nbumpe;", [0x224F, 0x338]),
  (codes "ncap;", [0x2A43]), (codes "Ncaron;", [0x147]), (codes "ncaron;", [0x148]), (codes "Ncedil;", [0x145]),
  (codes "ncedil;", [0x146]), (codes "ncong;", [0x2247]), (codes "ncongdot;", [0x2A6D, 0x338]),
  (codes "ncup;", [0x2A42]), (codes "Ncy;", [0x41D]), (codes "ncy;", [0x43D]), (codes "ndash;", [0x2013]),
  (codes "ne;", [0x2260]), (codes "nearhk;", [0x2924]), (codes "neArr;", [0x21D7]), (codes "nearr;", [0x2197]),
  (codes "nearrow;", [0x2197]), (codes "nedot;", [0x2250, 0x338]), (codes "NegativeMediumSpace;", [0x200B]),
  (codes "NegativeThickSpace;", [0x200B]), (codes "NegativeThinSpace;", [0x200B]),
  (codes "NegativeVeryThinSpace;", [0x200B]), (codes "nequiv;", [0x2262]), (codes "nesear;", [0x2928]),
  (codes "nesim;", [0x2242, 0x338]), (codes "NestedGreaterGreater;", [0x226B]), (codes "NestedLessLess;", [0x226A]),
  (codes "NewLine;", [0xA]), (codes "nexist;", [0x2204]), (codes "nexists;", [0x2204]), (codes "Nfr;", [0x1D511]),
  (codes "nfr;", [0x1D52B]), (codes "ngE;", [0x2267, 0x338]), (codes "nge;", [0x2271]), (codes "ngeq;", [0x2271]),
  (codes "ngeqq;", [0x2267, 0x338]), (codes "ngeqslant;", [0x2A7E, 0x338]), (codes "nges;", [0x2A7E, 0x338]),
  (codes "nGg;", [0x22D9, 0x338]), (codes "ngsim;", [0x2275]), (codes "nGt;", [0x226B, 0x20D2]),
  (codes "ngt;", [0x226F]), (codes "ngtr;", [0x226F]), (codes "nGtv;", [0x226B, 0x338]), (codes "nhArr;", [0x21CE]),
  (codes "nharr;", [0x21AE]), (codes "nhpar;", [0x2AF2]), (codes "ni;", [0x220B]), (codes "nis;", [0x22FC]),
  (codes "nisd;", [0x22FA]), (codes "niv;", [0x220B]), (codes "NJcy;", [0x40A]), (codes "njcy;", [0x45A]),
  (codes "nlArr;", [0x21CD]), (codes "nlarr;", [0x219A]), (codes "nldr;", [0x2025]), (codes "nlE;", [0x2266, 0x338]),
  (codes "nle;", [0x2270]), (codes "nLeftarrow;", [0x21CD])]

def names6 : Refs := [
  (codes "nleftarrow;", [0x219A]), (codes "nLeftrightarrow;", [0x21CE]), (codes "nleftrightarrow;", [0x21AE]),
  (codes "nleq;", [0x2270]), (codes "nleqq;", [0x2266, 0x338]), (codes "nleqslant;", [0x2A7D, 0x338]),
  (codes "nles;", [0x2A7D, 0x338]), (codes "nless;", [0x226E]), (codes "nLl;", [0x22D8, 0x338]),
  (codes "nlsim;", [0x2274]), (codes "nLt;", [0x226A, 0x20D2]), (codes "nlt;", [0x226E]), (codes "nltri;", [0x22EA]),
  (codes "nltrie;", [0x22EC]), (codes "nLtv;", [0x226A, 0x338]), (codes "nmid;", [0x2224]), (codes "NoBreak;", [0x2060]),
  (codes "NonBreakingSpace;", [0xA0]), (codes "Nopf;", [0x2115]), (codes "nopf;", [0x1D55F]), (codes "Not;", [0x2AEC]),
  (codes "not;", [0xAC]), (codes "not", [0xAC]), (codes "NotCongruent;", [0x2262]), (codes "NotCupCap;", [0x226D]),
  (codes "NotDoubleVerticalBar;", [0x2226]), (codes "NotElement;", [0x2209]), (codes "NotEqual;", [0x2260]),
  (codes "NotEqualTilde;", [0x2242, 0x338]), (codes "NotExists;", [0x2204]), (codes "NotGreater;", [0x226F]),
  (codes "NotGreaterEqual;", [0x2271]), (codes "NotGreaterFullEqual;", [0x2267, 0x338]),
  (codes "NotGreaterGreater;", [0x226B, 0x338]), (codes "NotGreaterLess;", [0x2279]),
  (codes "NotGreaterSlantEqual;", [0x2A7E, 0x338]), (codes "NotGreaterTilde;", [0x2275]),
  (codes "NotHumpDownHump;", [0x224E, 0x338]), (codes "NotHumpEqual;", [0x224F, 0x338]), (codes "notin;", [0x2209]),
  (codes "notindot;", [0x22F5, 0x338]), (codes "notinE;", [0x22F9, 0x338]), (codes "notinva;", [0x2209]),
  (codes "notinvb;", [0x22F7]), (codes "notinvc;", [0x22F6]), (codes "NotLeftTriangle;", [0x22EA]),
  (codes "NotLeftTriangleBar;", [0x29CF, 0x338]), (codes "NotLeftTriangleEqual;", [0x22EC]),
  (codes "NotLess;", [0x226E]), (codes "NotLessEqual;", [0x2270]), (codes "NotLessGreater;", [0x2278]),
  (codes "NotLessLess;", [0x226A, 0x338]), (codes "NotLessSlantEqual;", [0x2A7D, 0x338]),
  (codes "NotLessTilde;", [0x2274]), (codes "NotNestedGreaterGreater;", [0x2AA2, 0x338]),
  (codes "NotNestedLessLess;", [0x2AA1, 0x338]), (codes "notni;", [0x220C]), (codes "notniva;", [0x220C]),
  (codes "notnivb;", [0x22FE]), (codes "notnivc;", [0x22FD]), (codes "NotPrecedes;", [0x2280]),
  (codes "NotPrecedesEqual;", [0x2AAF, 0x338]), (codes "NotPrecedesSlantEqual;", [0x22E0]),
  (codes "NotReverseElement;", [0x220C]), (codes "NotRightTriangle;", [0x22EB]),
  (codes "NotRightTriangleBar;", [0x29D0, 0x338]), (codes "NotRightTriangleEqual;", [0x22ED]),
  (codes "NotSquareSubset;", [0x228F, 0x338]), (codes "NotSquareSubsetEqual;", [0x22E2]),
  (codes "NotSquareSuperset;", [0x2290, 0x338]), (codes "NotSquareSupersetEqual;", [0x22E3]),
  (codes "NotSubset;", [0x2282, 0x20D2]), (codes "NotSubsetEqual;", [0x2288]), (codes "NotSucceeds;", [0x2281]),
  (codes "NotSucceedsEqual;", [0x2AB0, 0x338]), (codes "NotSucceedsSlantEqual;", [0x22E1]),
  (codes "NotSucceedsTilde;", [0x227F, 0x338]), (codes "NotSuperset;", [0x2283, 0x20D2]),
  (codes "NotSupersetEqual;", [0x2289]), (codes "NotTilde;", [0x2241]), (codes "NotTildeEqual;", [0x2244]),
  (codes "NotTildeFullEqual;", [0x2247]), (codes "NotTildeTilde;", [0x2249]), (codes "NotVerticalBar;", [0x2224]),
  (codes "npar;", [0x2226]), (codes "nparallel;", [0x2226]), (codes "nparsl;", [0x2AFD, 0x20E5]),
  (codes "npart;", [0x2202, 0x338]), (codes "npolint;", [0x2A14]), (codes "npr;", [0x2280]), (codes "nprcue;", [0x22E0]),
  (codes "npre;", [0x2AAF, 0x338]), (codes "nprec;", [0x2280]), (codes "npreceq;", [0x2AAF, 0x338]),
  (codes "nrArr;", [0x21CF]), (codes "nrarr;", [0x219B]), (codes "nrarrc;", [0x2933, 0x338]),
  (codes "nrarrw;", [0x219D, 0x338]), (codes "nRightarrow;", [0x21CF]), (codes "nrightarrow;", [0x219B]),
  (codes "nrtri;", [0x22EB]), (codes "nrtrie;", [0x22ED]), (codes "nsc;", [0x2281]), (codes "nsccue;", [0x22E1]),
  (codes "nsce;", [0x2AB0, 0x338]), (codes "Nscr;", [0x1D4A9]), (codes "nscr;", [0x1D4C3]),
  (codes "nshortmid;", [0x2224]), (codes "nshortparallel;", [0x2226]), (codes "nsim;", [0x2241]),
  (codes "nsime;", [0x2244]), (codes "nsimeq;", [0x2244]), (codes "nsmid;", [0x2224]), (codes "nspar;", [0x2226]),
  (codes "nsqsube;", [0x22E2]), (codes "nsqsupe;", [0x22E3]), (codes "nsub;", [0x2284]),
  (codes "nsubE;", [0x2AC5, 0x338]), (codes "nsube;", [0x2288]), (codes "nsubset;", [0x2282, 0x20D2]),
  (codes "nsubseteq;", [0x2288]), (codes "nsubseteqq;", [0x2AC5, 0x338]), (codes "nsucc;", [0x2281]),
  (codes "nsucceq;", [0x2AB0, 0x338]), (codes "nsup;", [0x2285]), (codes "nsupE;", [0x2AC6, 0x338]),
  (codes "nsupe;", [0x2289]), (codes "nsupset;", [0x2283, 0x20D2]), (codes "nsupseteq;", [0x2289]),
  (codes "nsupseteqq;", [0x2AC6, 0x338]), (codes "ntgl;", [0x2279]), (codes "Ntilde;", [0xD1]), (codes "Ntilde", [0xD1]),
  (codes "ntilde;", [0xF1]), (codes "ntilde", [0xF1]), (codes "ntlg;", [0x2278]), (codes "ntriangleleft;", [0x22EA]),
  (codes "ntrianglelefteq;", [0x22EC]), (codes "ntriangleright;", [0x22EB]), (codes "ntrianglerighteq;", [0x22ED]),
  (codes "Nu;", [0x39D]), (codes "nu;", [0x3BD]), (codes "num;", [0x23]), (codes "numero;", [0x2116]),
  (codes "numsp;", [0x2007]), (codes "nvap;", [0x224D, 0x20D2]), (codes "nVDash;", [0x22AF]),
  (codes "nVdash;", [0x22AE]), (codes "nvDash;", [0x22AD]), (codes "nvdash;", [0x22AC]),
  (codes "nvge;", [0x2265, 0x20D2]), (codes "nvgt;", [0x3E, 0x20D2]), (codes "nvHarr;", [0x2904]),
  (codes "nvinfin;", [0x29DE]), (codes "nvlArr;", [0x2902]), (codes "nvle;", [0x2264, 0x20D2]),
  (codes "nvlt;", [0x3C, 0x20D2]), (codes "nvltrie;", [0x22B4, 0x20D2]), (codes "nvrArr;", [0x2903]),
  (codes "nvrtrie;", [0x22B5, 0x20D2]), (codes "nvsim;", [0x223C, 0x20D2]), (codes "nwarhk;", [0x2923]),
  (codes "nwArr;", [0x21D6]), (codes "nwarr;", [0x2196]), (codes "nwarrow;", [0x2196]), (codes "nwnear;", [0x2927]),
  (codes "Oacute;", [0xD3]), (codes "Oacute", [0xD3]), (codes "oacute;", [0xF3]), (codes "oacute", [0xF3]),
  (codes "oast;", [0x229B]), (codes "ocir;", [0x229A]), (codes "Ocirc;", [0xD4]), (codes "Ocirc", [0xD4]),
  (codes "ocirc;", [0xF4]), (codes "ocirc", [0xF4]), (codes "Ocy;", [0x41E]), (codes "ocy;", [0x43E]),
  (codes "odash;", [0x229D]), (codes "Odblac;", [0x150]), (codes "odblac;", [0x151]), (codes "odiv;", [0x2A38]),
  (codes "odot;", [0x2299]), (codes "odsold;", [0x29BC]), (codes "OElig;", [0x152]), (codes "oelig;", [0x153]),
  (codes "ofcir;", [0x29BF]), (codes "Ofr;", [0x1D512]), (codes "ofr;", [0x1D52C]), (codes "ogon;", [0x2DB]),
  (codes "Ograve;", [0xD2]), (codes "Ograve", [0xD2]), (codes "ograve;", [0xF2]), (codes "ograve", [0xF2]),
  (codes "ogt;", [0x29C1]), (codes "ohbar;", [0x29B5]), (codes "ohm;", [0x3A9]), (codes "oint;", [0x222E]),
  (codes "olarr;", [0x21BA]), (codes "olcir;", [0x29BE])]

def names7 : Refs := [
  (codes "olcross;", [0x29BB]), (codes "oline;", [0x203E]), (codes "olt;", [0x29C0]), (codes "Omacr;", [0x14C]),
  (codes "omacr;", [0x14D]), (codes "Omega;", [0x3A9]), (codes "omega;", [0x3C9]), (codes "Omicron;", [0x39F]),
  (codes "omicron;", [0x3BF]), (codes "omid;", [0x29B6]), (codes "ominus;", [0x2296]), (codes "Oopf;", [0x1D546]),
  (codes "oopf;", [0x1D560]), (codes "opar;", [0x29B7]), (codes "OpenCurlyDoubleQuote;", [0x201C]),
  (codes "OpenCurlyQuote;", [0x2018]), (codes "operp;", [0x29B9]), (codes "oplus;", [0x2295]), (codes "Or;", [0x2A54]),
  (codes "or;", [0x2228]), (codes "orarr;", [0x21BB]), (codes "ord;", [0x2A5D]), (codes "order;", [0x2134]),
  (codes "orderof;", [0x2134]), (codes "ordf;", [0xAA]), (codes "ordf", [0xAA]), (codes "ordm;", [0xBA]),
  (codes "ordm", [0xBA]), (codes "origof;", [0x22B6]), (codes "oror;", [0x2A56]), (codes "orslope;", [0x2A57]),
  (codes "orv;", [0x2A5B]), (codes "oS;", [0x24C8]), (codes "Oscr;", [0x1D4AA]), (codes "oscr;", [0x2134]),
  (codes "Oslash;", [0xD8]), (codes "Oslash", [0xD8]), (codes "oslash;", [0xF8]), (codes "oslash", [0xF8]),
  (codes "osol;", [0x2298]), (codes "Otilde;", [0xD5]), (codes "Otilde", [0xD5]), (codes "otilde;", [0xF5]),
  (codes "otilde", [0xF5]), (codes "Otimes;", [0x2A37]), (codes "otimes;", [0x2297]), (codes "otimesas;", [0x2A36]),
  (codes "Ouml;", [0xD6]), (codes "Ouml", [0xD6]), (codes "ouml;", [0xF6]), (codes "ouml", [0xF6]),
  (codes "ovbar;", [0x233D]), (codes "OverBar;", [0x203E]), (codes "OverBrace;", [0x23DE]),
  (codes "OverBracket;", [0x23B4]), (codes "OverParenthesis;", [0x23DC]), (codes "par;", [0x2225]),
  (codes "para;", [0xB6]), (codes "para", [0xB6]), (codes "parallel;", [0x2225]), (codes "parsim;", [0x2AF3]),
  (codes "parsl;", [0x2AFD]), (codes "part;", [0x2202]), (codes "PartialD;", [0x2202]), (codes "Pcy;", [0x41F]),
  (codes "pcy;", [0x43F]), (codes "percnt;", [0x25]), (codes "period;", [0x2E]), (codes "permil;", [0x2030]),
  (codes "perp;", [0x22A5]), (codes "pertenk;", [0x2031]), (codes "Pfr;", [0x1D513]), (codes "pfr;", [0x1D52D]),
  (codes "Phi;", [0x3A6]), (codes "phi;", [0x3C6]), (codes "phiv;", [0x3D5]), (codes "phmmat;", [0x2133]),
  (codes "phone;", [0x260E]), (codes "Pi;", [0x3A0]), (codes "pi;", [0x3C0]), (codes "pitchfork;", [0x22D4]),
  (codes "piv;", [0x3D6]), (codes "planck;", [0x210F]), (codes "planckh;", [0x210E]), (codes "plankv;", [0x210F]),
  (codes "plus;", [0x2B]), (codes "plusacir;", [0x2A23]), (codes "plusb;", [0x229E]), (codes "pluscir;", [0x2A22]),
  (codes "plusdo;", [0x2214]), (codes "plusdu;", [0x2A25]), (codes "pluse;", [0x2A72]), (codes "PlusMinus;", [0xB1]),
  (codes "plusmn;", [0xB1]), (codes "plusmn", [0xB1]), (codes "plussim;", [0x2A26]), (codes "plustwo;", [0x2A27]),
  (codes "pm;", [0xB1]), (codes "Poincareplane;", [0x210C]), (codes "pointint;", [0x2A15]), (codes "Popf;", [0x2119]),
  (codes "popf;", [0x1D561]), (codes "pound;", [0xA3]), (codes "pound", [0xA3]), (codes "Pr;", [0x2ABB]),
  (codes "pr;", [0x227A]), (codes "prap;", [0x2AB7]), (codes "prcue;", [0x227C]), (codes "prE;", [0x2AB3]),
  (codes "pre;", [0x2AAF]), (codes "prec;", [0x227A]), (codes "precapprox;", [0x2AB7]), (codes "preccurlyeq;", [0x227C]),
  (codes "Precedes;", [0x227A]), (codes "PrecedesEqual;", [0x2AAF]), (codes "PrecedesSlantEqual;", [0x227C]),
  (codes "PrecedesTilde;", [0x227E]), (codes "preceq;", [0x2AAF]), (codes "precnapprox;", [0x2AB9]),
  (codes "precneqq;", [0x2AB5]), (codes "precnsim;", [0x22E8]), (codes "precsim;", [0x227E]), (codes "Prime;", [0x2033]),
  (codes "prime;", [0x2032]), (codes "primes;", [0x2119]), (codes "prnap;", [0x2AB9]), (codes "prnE;", [0x2AB5]),
  (codes "prnsim;", [0x22E8]), (codes "prod;", [0x220F]), (codes "Product;", [0x220F]), (codes "profalar;", [0x232E]),
  (codes "profline;", [0x2312]), (codes "profsurf;", [0x2313]), (codes "prop;", [0x221D]),
  (codes "Proportion;", [0x2237]), (codes "Proportional;", [0x221D]), (codes "propto;", [0x221D]),
  (codes "prsim;", [0x227E]), (codes "prurel;", [0x22B0]), (codes "Pscr;", [0x1D4AB]), (codes "pscr;", [0x1D4C5]),
  (codes "Psi;", [0x3A8]), (codes "psi;", [0x3C8]), (codes "puncsp;", [0x2008]), (codes "Qfr;", [0x1D514]),
  (codes "qfr;", [0x1D52E]), (codes "qint;", [0x2A0C]), (codes "Qopf;", [0x211A]), (codes "qopf;", [0x1D562]),
  (codes "qprime;", [0x2057]), (codes "Qscr;", [0x1D4AC]), (codes "qscr;", [0x1D4C6]), (codes "quaternions;", [0x210D]),
  (codes "quatint;", [0x2A16]), (codes "quest;", [0x3F]), (codes "questeq;", [0x225F]), (codes "QUOT;", [0x22]),
  (codes "QUOT", [0x22]), (codes "quot;", [0x22]), (codes "quot", [0x22]), (codes "rAarr;", [0x21DB]),
  (codes "race;", [0x223D, 0x331]), (codes "Racute;", [0x154]), (codes "racute;", [0x155]), (codes "radic;", [0x221A]),
  (codes "raemptyv;", [0x29B3]), (codes "Rang;", [0x27EB]), (codes "rang;", [0x27E9]), (codes "rangd;", [0x2992]),
  (codes "range;", [0x29A5]), (codes "rangle;", [0x27E9]), (codes "raquo;", [0xBB]), (codes "raquo", [0xBB]),
  (codes "Rarr;", [0x21A0]), (codes "rArr;", [0x21D2]), (codes "rarr;", [0x2192]), (codes "rarrap;", [0x2975]),
  (codes "rarrb;", [0x21E5]), (codes "rarrbfs;", [0x2920]), (codes "rarrc;", [0x2933]), (codes "rarrfs;", [0x291E]),
  (codes "rarrhk;", [0x21AA]), (codes "rarrlp;", [0x21AC]), (codes "rarrpl;", [0x2945]), (codes "rarrsim;", [0x2974]),
  (codes "Rarrtl;", [0x2916]), (codes "rarrtl;", [0x21A3]), (codes "rarrw;", [0x219D]), (codes "rAtail;", [0x291C]),
  (codes "ratail;", [0x291A]), (codes "ratio;", [0x2236]), (codes "rationals;", [0x211A]), (codes "RBarr;", [0x2910]),
  (codes "rBarr;", [0x290F]), (codes "rbarr;", [0x290D]), (codes "rbbrk;", [0x2773]), (codes "rbrace;", [0x7D]),
  (codes "rbrack;", [0x5D]), (codes "rbrke;", [0x298C]), (codes "rbrksld;", [0x298E])]

def names8 : Refs := [
  (codes "rbrkslu;", [0x2990]), (codes "Rcaron;", [0x158]), (codes "rcaron;", [0x159]), (codes "Rcedil;", [0x156]),
  (codes "rcedil;", [0x157]), (codes "rceil;", [0x2309]), (codes "rcub;", [0x7D]), (codes "Rcy;", [0x420]),
  (codes "rcy;", [0x440]), (codes "rdca;", [0x2937]), (codes "rdldhar;", [0x2969]), (codes "rdquo;", [0x201D]),
  (codes "rdquor;", [0x201D]), (codes "rdsh;", [0x21B3]), (codes "Re;", [0x211C]), (codes "real;", [0x211C]),
  (codes "realine;", [0x211B]), (codes "realpart;", [0x211C]), (codes "reals;", [0x211D]), (codes "rect;", [0x25AD]),
  (codes "REG;", [0xAE]), (codes "REG", [0xAE]), (codes "reg;", [0xAE]), (codes "reg", [0xAE]),
  (codes "ReverseElement;", [0x220B]), (codes "ReverseEquilibrium;", [0x21CB]),
  (codes "ReverseUpEquilibrium;", [0x296F]), (codes "rfisht;", [0x297D]), (codes "rfloor;", [0x230B]),
  (codes "Rfr;", [0x211C]), (codes "rfr;", [0x1D52F]), (codes "rHar;", [0x2964]), (codes "rhard;", [0x21C1]),
  (codes "rharu;", [0x21C0]), (codes "rharul;", [0x296C]), (codes "Rho;", [0x3A1]), (codes "rho;", [0x3C1]),
  (codes "rhov;", [0x3F1]), (codes "RightAngleBracket;", [0x27E9]), (codes "RightArrow;", [0x2192]),
  (codes "Rightarrow;", [0x21D2]), (codes "rightarrow;", [0x2192]), (codes "RightArrowBar;", [0x21E5]),
  (codes "RightArrowLeftArrow;", [0x21C4]), (codes "rightarrowtail;", [0x21A3]), (codes "RightCeiling;", [0x2309]),
  (codes "RightDoubleBracket;", [0x27E7]), (codes "RightDownTeeVector;", [0x295D]), (codes "RightDownVector;", [0x21C2]),
  (codes "RightDownVectorBar;", [0x2955]), (codes "RightFloor;", [0x230B]), (codes "rightharpoondown;", [0x21C1]),
  (codes "rightharpoonup;", [0x21C0]), (codes "rightleftarrows;", [0x21C4]), (codes "rightleftharpoons;", [0x21CC]),
  (codes "rightrightarrows;", [0x21C9]), (codes "rightsquigarrow;", [0x219D]), (codes "RightTee;", [0x22A2]),
  (codes "RightTeeArrow;", [0x21A6]), (codes "RightTeeVector;", [0x295B]), (codes "rightthreetimes;", [0x22CC]),
  (codes "RightTriangle;", [0x22B3]), (codes "RightTriangleBar;", [0x29D0]), (codes "RightTriangleEqual;", [0x22B5]),
  (codes "RightUpDownVector;", [0x294F]), (codes "RightUpTeeVector;", [0x295C]), (codes "RightUpVector;", [0x21BE]),
  (codes "RightUpVectorBar;", [0x2954]), (codes "RightVector;", [0x21C0]), (codes "RightVectorBar;", [0x2953]),
  (codes "ring;", [0x2DA]), (codes "risingdotseq;", [0x2253]), (codes "rlarr;", [0x21C4]), (codes "rlhar;", [0x21CC]),
  (codes "rlm;", [0x200F]), (codes "rmoust;", [0x23B1]), (codes "rmoustache;", [0x23B1]), (codes "rnmid;", [0x2AEE]),
  (codes "roang;", [0x27ED]), (codes "roarr;", [0x21FE]), (codes "robrk;", [0x27E7]), (codes "ropar;", [0x2986]),
  (codes "Ropf;", [0x211D]), (codes "ropf;", [0x1D563]), (codes "roplus;", [0x2A2E]), (codes "rotimes;", [0x2A35]),
  (codes "RoundImplies;", [0x2970]), (codes "rpar;", [0x29]), (codes "rpargt;", [0x2994]), (codes "rppolint;", [0x2A12]),
  (codes "rrarr;", [0x21C9]), (codes "Rrightarrow;", [0x21DB]), (codes "rsaquo;", [0x203A]), (codes "Rscr;", [0x211B]),
  (codes "rscr;", [0x1D4C7]), (codes "Rsh;", [0x21B1]), (codes "rsh;", [0x21B1]), (codes "rsqb;", [0x5D]),
  (codes "rsquo;", [0x2019]), (codes "rsquor;", [0x2019]), (codes "rthree;", [0x22CC]), (codes "rtimes;", [0x22CA]),
  (codes "rtri;", [0x25B9]), (codes "rtrie;", [0x22B5]), (codes "rtrif;", [0x25B8]), (codes "rtriltri;", [0x29CE]),
  (codes "RuleDelayed;", [0x29F4]), (codes "ruluhar;", [0x2968]), (codes "rx;", [0x211E]), (codes "Sacute;", [0x15A]),
  (codes "sacute;", [0x15B]), (codes "sbquo;", [0x201A]), (codes "Sc;", [0x2ABC]), (codes "sc;", [0x227B]),
  (codes "scap;", [0x2AB8]), (codes "Scaron;", [0x160]), (codes "scaron;", [0x161]), (codes "sccue;", [0x227D]),
  (codes "scE;", [0x2AB4]), (codes "sce;", [0x2AB0]), (codes "Scedil;", [0x15E]), (codes "scedil;", [0x15F]),
  (codes "Scirc;", [0x15C]), (codes "scirc;", [0x15D]), (codes "scnap;", [0x2ABA]), (codes "scnE;", [0x2AB6]),
  (codes "scnsim;", [0x22E9]), (codes "scpolint;", [0x2A13]), (codes "scsim;", [0x227F]), (codes "Scy;", [0x421]),
  (codes "scy;", [0x441]), (codes "sdot;", [0x22C5]), (codes "sdotb;", [0x22A1]), (codes "sdote;", [0x2A66]),
  (codes "searhk;", [0x2925]), (codes "seArr;", [0x21D8]), (codes "searr;", [0x2198]), (codes "searrow;", [0x2198]),
  (codes "sect;", [0xA7]), (codes "sect", [0xA7]), (codes "semi;", [0x3B]), (codes "seswar;", [0x2929]),
  (codes "setminus;", [0x2216]), (codes "setmn;", [0x2216]), (codes "sext;", [0x2736]), (codes "Sfr;", [0x1D516]),
  (codes "sfr;", [0x1D530]), (codes "sfrown;", [0x2322]), (codes "sharp;", [0x266F]), (codes "SHCHcy;", [0x429]),
  (codes "shchcy;", [0x449]), (codes "SHcy;", [0x428]), (codes "shcy;", [0x448]), (codes "ShortDownArrow;", [0x2193]),
  (codes "ShortLeftArrow;", [0x2190]), (codes "shortmid;", [0x2223]), (codes "shortparallel;", [0x2225]),
  (codes "ShortRightArrow;", [0x2192]), (codes "ShortUpArrow;", [0x2191]), (codes "shy;", [0xAD]), (codes "shy", [0xAD]),
  (codes "Sigma;", [0x3A3]), (codes "sigma;", [0x3C3]), (codes "sigmaf;", [0x3C2]), (codes "sigmav;", [0x3C2]),
  (codes "sim;", [0x223C]), (codes "simdot;", [0x2A6A]), (codes "sime;", [0x2243]), (codes "simeq;", [0x2243]),
  (codes "simg;", [0x2A9E]), (codes "simgE;", [0x2AA0]), (codes "siml;", [0x2A9D]), (codes "simlE;", [0x2A9F]),
  (codes "simne;", [0x2246]), (codes "simplus;", [0x2A24]), (codes "simrarr;", [0x2972]), (codes "slarr;", [0x2190]),
  (codes "SmallCircle;", [0x2218]), (codes "smallsetminus;", [0x2216]), (codes "smashp;", [0x2A33]),
  (codes "smeparsl;", [0x29E4]), (codes "smid;", [0x2223]), (codes "smile;", [0x2323]), (codes "smt;", [0x2AAA]),
  (codes "smte;", [0x2AAC]), (codes "smtes;", [0x2AAC, 0xFE00]), (codes "SOFTcy;", [0x42C]), (codes "softcy;", [0x44C]),
  (codes "sol;", [0x2F]), (codes "solb;", [0x29C4]), (codes "solbar;", [0x233F]), (codes "Sopf;", [0x1D54A]),
  (codes "sopf;", [0x1D564]), (codes "spades;", [0x2660]), (codes "spadesuit;", [0x2660]), (codes "spar;", [0x2225]),
  (codes "sqcap;", [0x2293]), (codes "sqcaps;", [0x2293, 0xFE00]), (codes "sqcup;", [0x2294]),
  (codes "sqcups;", [0x2294, 0xFE00])]

def names9 : Refs := [
  (codes "Sqrt;", [0x221A]), (codes "sqsub;", [0x228F]), (codes "sqsube;", [0x2291]), (codes "sqsubset;", [0x228F]),
  (codes "sqsubseteq;", [0x2291]), (codes "sqsup;", [0x2290]), (codes "sqsupe;", [0x2292]),
  (codes "sqsupset;", [0x2290]), (codes "sqsupseteq;", [0x2292]), (codes "squ;", [0x25A1]), (codes "Square;", [0x25A1]),
  (codes "square;", [0x25A1]), (codes "SquareIntersection;", [0x2293]), (codes "SquareSubset;", [0x228F]),
  (codes "SquareSubsetEqual;", [0x2291]), (codes "SquareSuperset;", [0x2290]), (codes "SquareSupersetEqual;", [0x2292]),
  (codes "SquareUnion;", [0x2294]), (codes "squarf;", [0x25AA]), (codes "squf;", [0x25AA]), (codes "srarr;", [0x2192]),
  (codes "Sscr;", [0x1D4AE]), (codes "sscr;", [0x1D4C8]), (codes "ssetmn;", [0x2216]), (codes "ssmile;", [0x2323]),
  (codes "sstarf;", [0x22C6]), (codes "Star;", [0x22C6]), (codes "star;", [0x2606]), (codes "starf;", [0x2605]),
  (codes "straightepsilon;", [0x3F5]), (codes "straightphi;", [0x3D5]), (codes "strns;", [0xAF]),
  (codes "Sub;", [0x22D0]), (codes "sub;", [0x2282]), (codes "subdot;", [0x2ABD]), (codes "subE;", [0x2AC5]),
  (codes "sube;", [0x2286]), (codes "subedot;", [0x2AC3]), (codes "submult;", [0x2AC1]), (codes "subnE;", [0x2ACB]),
  (codes "subne;", [0x228A]), (codes "subplus;", [0x2ABF]), (codes "subrarr;", [0x2979]), (codes "Subset;", [0x22D0]),
  (codes "subset;", [0x2282]), (codes "subseteq;", [0x2286]), (codes "subseteqq;", [0x2AC5]),
  (codes "SubsetEqual;", [0x2286]), (codes "subsetneq;", [0x228A]), (codes "subsetneqq;", [0x2ACB]),
  (codes "subsim;", [0x2AC7]), (codes "subsub;", [0x2AD5]), (codes "subsup;", [0x2AD3]), (codes "succ;", [0x227B]),
  (codes "succapprox;", [0x2AB8]), (codes "succcurlyeq;", [0x227D]), (codes "Succeeds;", [0x227B]),
  (codes "SucceedsEqual;", [0x2AB0]), (codes "SucceedsSlantEqual;", [0x227D]), (codes "SucceedsTilde;", [0x227F]),
  (codes "succeq;", [0x2AB0]), (codes "succnapprox;", [0x2ABA]), (codes "succneqq;", [0x2AB6]),
  (codes "succnsim;", [0x22E9]), (codes "succsim;", [0x227F]), (codes "SuchThat;", [0x220B]), (codes "Sum;", [0x2211]),
  (codes "sum;", [0x2211]), (codes "sung;", [0x266A]), (codes "Sup;", [0x22D1]), (codes "sup;", [0x2283]),
  (codes "sup1;", [0xB9]), (codes "sup1", [0xB9]), (codes "sup2;", [0xB2]), (codes "sup2", [0xB2]),
  (codes "sup3;", [0xB3]), (codes "sup3", [0xB3]), (codes "supdot;", [0x2ABE]), (codes "supdsub;", [0x2AD8]),
  (codes "supE;", [0x2AC6]), (codes "supe;", [0x2287]), (codes "supedot;", [0x2AC4]), (codes "Superset;", [0x2283]),
  (codes "SupersetEqual;", [0x2287]), (codes "suphsol;", [0x27C9]), (codes "suphsub;", [0x2AD7]),
  (codes "suplarr;", [0x297B]), (codes "supmult;", [0x2AC2]), (codes "supnE;", [0x2ACC]), (codes "supne;", [0x228B]),
  (codes "supplus;", [0x2AC0]), (codes "Supset;", [0x22D1]), (codes "supset;", [0x2283]), (codes "supseteq;", [0x2287]),
  (codes "supseteqq;", [0x2AC6]), (codes "supsetneq;", [0x228B]), (codes "supsetneqq;", [0x2ACC]),
  (codes "supsim;", [0x2AC8]), (codes "supsub;", [0x2AD4]), (codes "supsup;", [0x2AD6]), (codes "swarhk;", [0x2926]),
  (codes "swArr;", [0x21D9]), (codes "swarr;", [0x2199]), (codes "swarrow;", [0x2199]), (codes "swnwar;", [0x292A]),
  (codes "szlig;", [0xDF]), (codes "szlig", [0xDF]), (codes "Tab;", [0x9]), (codes "target;", [0x2316]),
  (codes "Tau;", [0x3A4]), (codes "tau;", [0x3C4]), (codes "tbrk;", [0x23B4]), (codes "Tcaron;", [0x164]),
  (codes "tcaron;", [0x165]), (codes "Tcedil;", [0x162]), (codes "tcedil;", [0x163]), (codes "Tcy;", [0x422]),
  (codes "tcy;", [0x442]), (codes "tdot;", [0x20DB]), (codes "telrec;", [0x2315]), (codes "Tfr;", [0x1D517]),
  (codes "tfr;", [0x1D531]), (codes "there4;", [0x2234]), (codes "Therefore;", [0x2234]), (codes "therefore;", [0x2234]),
  (codes "Theta;", [0x398]), (codes "theta;", [0x3B8]), (codes "thetasym;", [0x3D1]), (codes "thetav;", [0x3D1]),
  (codes "thickapprox;", [0x2248]), (codes "thicksim;", [0x223C]), (codes "ThickSpace;", [0x205F, 0x200A]),
  (codes "thinsp;", [0x2009]), (codes "ThinSpace;", [0x2009]), (codes "thkap;", [0x2248]), (codes "thksim;", [0x223C]),
  (codes "THORN;", [0xDE]), (codes "THORN", [0xDE]), (codes "thorn;", [0xFE]), (codes "thorn", [0xFE]),
  (codes "Tilde;", [0x223C]), (codes "tilde;", [0x2DC]), (codes "TildeEqual;", [0x2243]),
  (codes "TildeFullEqual;", [0x2245]), (codes "TildeTilde;", [0x2248]), (codes "times;", [0xD7]),
  (codes "times", [0xD7]), (codes "timesb;", [0x22A0]), (codes "timesbar;", [0x2A31]), (codes "timesd;", [0x2A30]),
  (codes "tint;", [0x222D]), (codes "toea;", [0x2928]), (codes "top;", [0x22A4]), (codes "topbot;", [0x2336]),
  (codes "topcir;", [0x2AF1]), (codes "Topf;", [0x1D54B]), (codes "topf;", [0x1D565]), (codes "topfork;", [0x2ADA]),
  (codes "tosa;", [0x2929]), (codes "tprime;", [0x2034]), (codes "TRADE;", [0x2122]), (codes "trade;", [0x2122]),
  (codes "triangle;", [0x25B5]), (codes "triangledown;", [0x25BF]), (codes "triangleleft;", [0x25C3]),
  (codes "trianglelefteq;", [0x22B4]), (codes "triangleq;", [0x225C]), (codes "triangleright;", [0x25B9]),
  (codes "trianglerighteq;", [0x22B5]), (codes "tridot;", [0x25EC]), (codes "trie;", [0x225C]),
  (codes "triminus;", [0x2A3A]), (codes "TripleDot;", [0x20DB]), (codes "triplus;", [0x2A39]),
  (codes "trisb;", [0x29CD]), (codes "tritime;", [0x2A3B]), (codes "trpezium;", [0x23E2]), (codes "Tscr;", [0x1D4AF]),
  (codes "tscr;", [0x1D4C9]), (codes "TScy;", [0x426]), (codes "tscy;", [0x446]), (codes "TSHcy;", [0x40B]),
  (codes "tshcy;", [0x45B]), (codes "Tstrok;", [0x166]), (codes "tstrok;", [0x167]), (codes "twixt;", [0x226C]),
  (codes "twoheadleftarrow;", [0x219E]), (codes "twoheadrightarrow;", [0x21A0]), (codes "Uacute;", [0xDA]),
  (codes "Uacute", [0xDA]), (codes "uacute;", [0xFA]), (codes "uacute", [0xFA]), (codes "Uarr;", [0x219F]),
  (codes "uArr;", [0x21D1]), (codes "uarr;", [0x2191]), (codes "Uarrocir;", [0x2949]), (codes "Ubrcy;", [0x40E]),
  (codes "ubrcy;", [0x45E]), (codes "Ubreve;", [0x16C]), (codes "ubreve;", [0x16D])]

def names10 : Refs := [
  (codes "Ucirc;", [0xDB]), (codes "Ucirc", [0xDB]), (codes "ucirc;", [0xFB]), (codes "ucirc", [0xFB]),
  (codes "Ucy;", [0x423]), (codes "ucy;", [0x443]), (codes "udarr;", [0x21C5]), (codes "Udblac;", [0x170]),
  (codes "udblac;", [0x171]), (codes "udhar;", [0x296E]), (codes "ufisht;", [0x297E]), (codes "Ufr;", [0x1D518]),
  (codes "ufr;", [0x1D532]), (codes "Ugrave;", [0xD9]), (codes "Ugrave", [0xD9]), (codes "ugrave;", [0xF9]),
  (codes "ugrave", [0xF9]), (codes "uHar;", [0x2963]), (codes "uharl;", [0x21BF]), (codes "uharr;", [0x21BE]),
  (codes "uhblk;", [0x2580]), (codes "ulcorn;", [0x231C]), (codes "ulcorner;", [0x231C]), (codes "ulcrop;", [0x230F]),
  (codes "ultri;", [0x25F8]), (codes "Umacr;", [0x16A]), (codes "umacr;", [0x16B]), (codes "uml;", [0xA8]),
  (codes "uml", [0xA8]), (codes "UnderBar;", [0x5F]), (codes "UnderBrace;", [0x23DF]), (codes "UnderBracket;", [0x23B5]),
  (codes "UnderParenthesis;", [0x23DD]), (codes "Union;", [0x22C3]), (codes "UnionPlus;", [0x228E]),
  (codes "Uogon;", [0x172]), (codes "uogon;", [0x173]), (codes "Uopf;", [0x1D54C]), (codes "uopf;", [0x1D566]),
  (codes "UpArrow;", [0x2191]), (codes "Uparrow;", [0x21D1]), (codes "uparrow;", [0x2191]),
  (codes "UpArrowBar;", [0x2912]), (codes "UpArrowDownArrow;", [0x21C5]), (codes "UpDownArrow;", [0x2195]),
  (codes "Updownarrow;", [0x21D5]), (codes "updownarrow;", [0x2195]), (codes "UpEquilibrium;", [0x296E]),
  (codes "upharpoonleft;", [0x21BF]), (codes "upharpoonright;", [0x21BE]), (codes "uplus;", [0x228E]),
  (codes "UpperLeftArrow;", [0x2196]), (codes "UpperRightArrow;", [0x2197]), (codes "Upsi;", [0x3D2]),
  (codes "upsi;", [0x3C5]), (codes "upsih;", [0x3D2]), (codes "Upsilon;", [0x3A5]), (codes "upsilon;", [0x3C5]),
  (codes "UpTee;", [0x22A5]), (codes "UpTeeArrow;", [0x21A5]), (codes "upuparrows;", [0x21C8]),
  (codes "urcorn;", [0x231D]), (codes "urcorner;", [0x231D]), (codes "urcrop;", [0x230E]), (codes "Uring;", [0x16E]),
  (codes "uring;", [0x16F]), (codes "urtri;", [0x25F9]), (codes "Uscr;", [0x1D4B0]), (codes "uscr;", [0x1D4CA]),
  (codes "utdot;", [0x22F0]), (codes "Utilde;", [0x168]), (codes "utilde;", [0x169]), (codes "utri;", [0x25B5]),
  (codes "utrif;", [0x25B4]), (codes "uuarr;", [0x21C8]), (codes "Uuml;", [0xDC]), (codes "Uuml", [0xDC]),
  (codes "uuml;", [0xFC]), (codes "uuml", [0xFC]), (codes "uwangle;", [0x29A7]), (codes "vangrt;", [0x299C]),
  (codes "varepsilon;", [0x3F5]), (codes "varkappa;", [0x3F0]), (codes "varnothing;", [0x2205]),
  (codes "varphi;", [0x3D5]), (codes "varpi;", [0x3D6]), (codes "varpropto;", [0x221D]), (codes "vArr;", [0x21D5]),
  (codes "varr;", [0x2195]), (codes "varrho;", [0x3F1]), (codes "varsigma;", [0x3C2]),
  (codes "varsubsetneq;", [0x228A, 0xFE00]), (codes "varsubsetneqq;", [0x2ACB, 0xFE00]),
  (codes "varsupsetneq;", [0x228B, 0xFE00]), (codes "varsupsetneqq;", [0x2ACC, 0xFE00]), (codes "vartheta;", [0x3D1]),
  (codes "vartriangleleft;", [0x22B2]), (codes "vartriangleright;", [0x22B3]), (codes "Vbar;", [0x2AEB]),
  (codes "vBar;", [0x2AE8]), (codes "vBarv;", [0x2AE9]), (codes "Vcy;", [0x412]), (codes "vcy;", [0x432]),
  (codes "VDash;", [0x22AB]), (codes "Vdash;", [0x22A9]), (codes "vDash;", [0x22A8]), (codes "vdash;", [0x22A2]),
  (codes "Vdashl;", [0x2AE6]), (codes "Vee;", [0x22C1]), (codes "vee;", [0x2228]), (codes "veebar;", [0x22BB]),
  (codes "veeeq;", [0x225A]), (codes "vellip;", [0x22EE]), (codes "Verbar;", [0x2016]), (codes "verbar;", [0x7C]),
  (codes "Vert;", [0x2016]), (codes "vert;", [0x7C]), (codes "VerticalBar;", [0x2223]), (codes "VerticalLine;", [0x7C]),
  (codes "VerticalSeparator;", [0x2758]), (codes "VerticalTilde;", [0x2240]), (codes "VeryThinSpace;", [0x200A]),
  (codes "Vfr;", [0x1D519]), (codes "vfr;", [0x1D533]), (codes "vltri;", [0x22B2]), (codes "vnsub;", [0x2282, 0x20D2]),
  (codes "vnsup;", [0x2283, 0x20D2]), (codes "Vopf;", [0x1D54D]), (codes "vopf;", [0x1D567]), (codes "vprop;", [0x221D]),
  (codes "vrtri;", [0x22B3]), (codes "Vscr;", [0x1D4B1]), (codes "vscr;", [0x1D4CB]),
  (codes "vsubnE;", [0x2ACB, 0xFE00]), (codes "vsubne;", [0x228A, 0xFE00]), (codes "vsupnE;", [0x2ACC, 0xFE00]),
  (codes "vsupne;", [0x228B, 0xFE00]), (codes "Vvdash;", [0x22AA]), (codes "vzigzag;", [0x299A]),
  (codes "Wcirc;", [0x174]), (codes "wcirc;", [0x175]), (codes "wedbar;", [0x2A5F]), (codes "Wedge;", [0x22C0]),
  (codes "wedge;", [0x2227]), (codes "wedgeq;", [0x2259]), (codes "weierp;", [0x2118]), (codes "Wfr;", [0x1D51A]),
  (codes "wfr;", [0x1D534]), (codes "Wopf;", [0x1D54E]), (codes "wopf;", [0x1D568]), (codes "wp;", [0x2118]),
  (codes "wr;", [0x2240]), (codes "wreath;", [0x2240]), (codes "Wscr;", [0x1D4B2]), (codes "wscr;", [0x1D4CC]),
  (codes "xcap;", [0x22C2]), (codes "xcirc;", [0x25EF]), (codes "xcup;", [0x22C3]), (codes "xdtri;", [0x25BD]),
  (codes "Xfr;", [0x1D51B]), (codes "xfr;", [0x1D535]), (codes "xhArr;", [0x27FA]), (codes "xharr;", [0x27F7]),
  (codes "Xi;", [0x39E]), (codes "xi;", [0x3BE]), (codes "xlArr;", [0x27F8]), (codes "xlarr;", [0x27F5]),
  (codes "xmap;", [0x27FC]), (codes "xnis;", [0x22FB]), (codes "xodot;", [0x2A00]), (codes "Xopf;", [0x1D54F]),
  (codes "xopf;", [0x1D569]), (codes "xoplus;", [0x2A01]), (codes "xotime;", [0x2A02]), (codes "xrArr;", [0x27F9]),
  (codes "xrarr;", [0x27F6]), (codes "Xscr;", [0x1D4B3]), (codes "xscr;", [0x1D4CD]), (codes "xsqcup;", [0x2A06]),
  (codes "xuplus;", [0x2A04]), (codes "xutri;", [0x25B3]), (codes "xvee;", [0x22C1]), (codes "xwedge;", [0x22C0]),
  (codes "Yacute;", [0xDD]), (codes "Yacute", [0xDD]), (codes "yacute;", [0xFD]), (codes "yacute", [0xFD]),
  (codes "YAcy;", [0x42F]), (codes "yacy;", [0x44F]), (codes "Ycirc;", [0x176]), (codes "ycirc;", [0x177]),
  (codes "Ycy;", [0x42B]), (codes "ycy;", [0x44B]), (codes "yen;", [0xA5]), (codes "yen", [0xA5]),
  (codes "Yfr;", [0x1D51C]), (codes "yfr;", [0x1D536]), (codes "YIcy;", [0x407]), (codes "yicy;", [0x457]),
  (codes "Yopf;", [0x1D550])]

def names11 : Refs := [
  (codes "yopf;", [0x1D56A]), (codes "Yscr;", [0x1D4B4]), (codes "yscr;", [0x1D4CE]), (codes "YUcy;", [0x42E]),
  (codes "yucy;", [0x44E]), (codes "Yuml;", [0x178]), (codes "yuml;", [0xFF]), (codes "yuml", [0xFF]),
  (codes "Zacute;", [0x179]), (codes "zacute;", [0x17A]), (codes "Zcaron;", [0x17D]), (codes "zcaron;", [0x17E]),
  (codes "Zcy;", [0x417]), (codes "zcy;", [0x437]), (codes "Zdot;", [0x17B]), (codes "zdot;", [0x17C]),
  (codes "zeetrf;", [0x2128]), (codes "ZeroWidthSpace;", [0x200B]), (codes "Zeta;", [0x396]), (codes "zeta;", [0x3B6]),
  (codes "Zfr;", [0x2128]), (codes "zfr;", [0x1D537]), (codes "ZHcy;", [0x416]), (codes "zhcy;", [0x436]),
  (codes "zigrarr;", [0x21DD]), (codes "Zopf;", [0x2124]), (codes "zopf;", [0x1D56B]), (codes "Zscr;", [0x1D4B5]),
  (codes "zscr;", [0x1D4CF]), (codes "zwj;", [0x200D]), (codes "zwnj;", [0x200C])]

/-- All 2231 names. -/
def names : Refs := names0 ++ names1 ++ names2 ++ names3 ++ names4 ++ names5 ++ names6 ++ names7 ++ names8 ++ names9 ++ names10 ++ names11

end Verif.Spec.NamedRef
