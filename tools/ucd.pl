# Prints the Unicode tables of this Perl, for check_spec.py: property, kind, first and last code point, value.
use Unicode::UCD qw(prop_invmap prop_invlist prop_value_aliases prop_values);
my @enum = qw(Age Script Joining_Type Joining_Group Numeric_Type Numeric_Value Line_Break Grapheme_Cluster_Break
  Word_Break Sentence_Break East_Asian_Width General_Category Bidi_Class Bidi_Paired_Bracket_Type Decomposition_Type Block
  Canonical_Combining_Class Decomposition_Mapping Full_Composition_Exclusion Bidi_Mirroring_Glyph Bidi_Paired_Bracket
  Script_Extensions
  Simple_Uppercase_Mapping Simple_Lowercase_Mapping Simple_Titlecase_Mapping
  Uppercase_Mapping Lowercase_Mapping Titlecase_Mapping);
for my $p (@enum) {
  my ($l, $m, $f, $d) = prop_invmap($p);
  for my $i (0 .. $#$l) {
    my $e = $i < $#$l ? $l->[$i + 1] - 1 : 0x10ffff;
    next if $l->[$i] > 0x10ffff;
    $e = 0x10ffff if $e > 0x10ffff;
    my $v = $m->[$i];
    print "$p\t$f\t$l->[$i]\t$e\t", (ref($v) ? "[" . join(" ", @$v) . "]" : $v), "\n";
  }
}
for my $p (@ARGV) {
  my @l = prop_invlist($p);
  if (!@l) { print STDERR "no property $p\n"; next }
  for (my $i = 0; $i < @l; $i += 2) {
    my $e = $i < $#l ? $l[$i + 1] - 1 : 0x10ffff;
    print "$p\tb\t$l[$i]\t$e\tY\n";
  }
}
for my $p (qw(Script Joining_Type Joining_Group Line_Break Grapheme_Cluster_Break Word_Break Sentence_Break East_Asian_Width
  General_Category Bidi_Class Decomposition_Type)) {
  for my $v (prop_values($p)) {
    my @a = prop_value_aliases($p, $v);
    print "alias\t$p\t0\t0\t$_\t$a[0]\n" for (@a, $v);
  }
}
