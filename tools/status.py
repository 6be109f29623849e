# statuses other than "proved", and notes
